import Verif.Go.Utf8

/-! # `strings.TrimSpace` -/

namespace Verif.Go

/-- `unicode.IsSpace` on a decoded rune, given as its UTF-8 bytes: tab, newline, vertical tab, form feed, carriage return, space,
U+0085, U+00A0, U+1680, U+2000-U+200A, U+2028, U+2029, U+202F, U+205F, U+3000. An invalid byte is U+FFFD, not a space. -/
def Chunk.isSpace : Chunk → Bool
  | .ascii b => b == 32 || (9 ≤ b && b ≤ 13)
  | .multi [0xC2, x] => x == 0x85 || x == 0xA0
  | .multi [0xE1, 0x9A, x] => x == 0x80
  | .multi [0xE2, 0x80, x] => (0x80 ≤ x && x ≤ 0x8A) || x == 0xA8 || x == 0xA9 || x == 0xAF
  | .multi [0xE2, 0x81, x] => x == 0x9F
  | .multi [0xE3, 0x80, x] => x == 0x80
  | _ => false

/-- `strings.TrimSpace`: drop leading and trailing white space runes. Go decodes trailing runes backwards; this gives the same
runes as decoding forwards because UTF-8 is self-synchronising. -/
def trimSpace (s : Bytes) : Bytes :=
  ((((chunks s).dropWhile Chunk.isSpace).reverse.dropWhile Chunk.isSpace).reverse).flatMap Chunk.raw

end Verif.Go
