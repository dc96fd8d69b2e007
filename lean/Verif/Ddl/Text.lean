import Verif.Base.Str

/-!
# Model of the text helpers of `/repo/internal/ddl/parser_utils.go`
-/

namespace Verif.Ddl
open Verif

/-- What `\s` matches in Go's regexp: tab, newline, form feed, carriage return, space. -/
def reSpace (b : UInt8) : Bool := b = 9 || b = 10 || b = 12 || b = 13 || b = 32

/-- The replacement loop of `collapseWhitespace`; `inRun` says the previous byte matched. -/
def collapseLoop : Bool → Str → Str
  | _, [] => []
  | inRun, b :: s =>
    if reSpace b then (if inRun then collapseLoop true s else 32 :: collapseLoop true s)
    else b :: collapseLoop false s

/-- parser_utils.go:11-14 `collapseWhitespace`: every maximal match of `\s+` becomes one space. All
other bytes (also invalid UTF-8) are copied. -/
def collapseWhitespace (s : Str) : Str := collapseLoop false s

/-- One-byte spaces: 9..13 and 32. -/
def space1 (b : UInt8) : Bool := b = 9 || b = 10 || b = 11 || b = 12 || b = 13 || b = 32

/-- UTF-8 of U+0085 and U+00A0. -/
def space2 (b c : UInt8) : Bool := b = 0xC2 && (c = 0x85 || c = 0xA0)

/-- UTF-8 of U+1680, U+2000..U+200A, U+2028, U+2029, U+202F, U+205F and U+3000. -/
def space3 (b c d : UInt8) : Bool :=
  (b = 0xE1 && c = 0x9A && d = 0x80) ||
  (b = 0xE2 && c = 0x80 && ((0x80 ≤ d && d ≤ 0x8A) || d = 0xA8 || d = 0xA9 || d = 0xAF)) ||
  (b = 0xE2 && c = 0x81 && d = 0x9F) ||
  (b = 0xE3 && c = 0x80 && d = 0x80)

/-- Drop runes of one, two or three bytes while they satisfy the predicates. -/
def stripWhile (p1 : UInt8 → Bool) (p2 : UInt8 → UInt8 → Bool) (p3 : UInt8 → UInt8 → UInt8 → Bool) :
    Str → Str
  | [] => []
  | b :: s =>
    if p1 b then stripWhile p1 p2 p3 s
    else
      match s with
      | [] => [b]
      | c :: t =>
        if p2 b c then stripWhile p1 p2 p3 t
        else
          match t with
          | [] => [b, c]
          | d :: u => if p3 b c d then stripWhile p1 p2 p3 u else b :: c :: d :: u

/-- parser_utils.go:16-18 `trim`, i.e. `strings.TrimSpace`: drops the runes `unicode.IsSpace` holds
of at both ends. A byte sequence is such a rune exactly if it is one of the encodings above, read
from the front as well as from the back. -/
def trim (s : Str) : Str :=
  let l := stripWhile space1 space2 space3 s
  (stripWhile space1 (fun a b => space2 b a) (fun a b c => space3 c b a) l.reverse).reverse

/-- Upper case of an ASCII byte. -/
def upperByte (b : UInt8) : UInt8 := if 97 ≤ b && b ≤ 122 then b - 32 else b

/-- parser_utils.go:20-22 `upper`, i.e. `strings.ToUpper`. Simplified to ASCII: it is only applied to
the text of keywords (letters and spaces 9..13, 32), see C44 and C45. -/
def upper (s : Str) : Str := s.map upperByte

end Verif.Ddl
