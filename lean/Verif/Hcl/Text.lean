import Verif.Hcl.Model
import Verif.Base.Utf8

/-!
# The text of a document

ddl.go:52-57: `Write` hands the document to `hclwrite`, which prints it. The model of that printing
follows the library; that it prints the files in the test data of `/repo`, byte for byte, is checked
in `TextProps.lean`.
-/

namespace Verif.Hcl
open Verif

/-- Where items are printed: at the beginning of a body, after an attribute, or after a block. -/
inductive Prev where
  | start
  | attr
  | block (type : Str)
deriving DecidableEq

/-- What the next item comes after. -/
def Item.kind {N : Type} : Item N → Prev
  | .attr _ _ => .attr
  | .block t _ _ => .block t

/-- A digit of a hexadecimal number. -/
def hexDigit (n : Nat) : UInt8 := UInt8.ofNat (if n < 10 then 48 + n else 87 + n)

/-- `%04x` (`n = 4`) and `%08x` (`n = 8`) -/
def hexDigits : Nat → Nat → Str
  | 0, _ => []
  | n + 1, r => hexDigits n (r / 16) ++ [hexDigit (r % 16)]

/-- `hclwrite` `escapeQuotedStringLit`, by the runes of the text. `isPrint` is `unicode.IsPrint`. -/
def escape (isPrint : Nat → Bool) : List Nat → Str
  | [] => []
  | r :: rs =>
    (if r = 0x0A then b!"\\n"
    else if r = 0x0D then b!"\\r"
    else if r = 0x09 then b!"\\t"
    else if r = 0x22 then b!"\\\""
    else if r = 0x5C then b!"\\\\"
    else if r = 0x24 ∨ r = 0x25 then
      -- `${` and `%{` begin a template: the first byte is doubled
      if rs.head? = some 0x7B then [UInt8.ofNat r, UInt8.ofNat r] else [UInt8.ofNat r]
    else if isPrint r then Utf8.encode1 r
    else if r < 65536 then b!"\\u" ++ hexDigits 4 r
    else b!"\\U" ++ hexDigits 8 r) ++ escape isPrint rs

section
variable {N : Type} (isPrint : Nat → Bool) (showN : N → Str)

/-- A quoted text. Going through the runes of a text replaces what is not UTF-8. -/
def quoted (s : Str) : Str := 0x22 :: (escape isPrint (Utf8.decode s) ++ [0x22])

mutual
/-- `hclwrite` `appendTokensForValue` -/
def valueText : Value N → Str
  | .null => b!"null"
  | .str s => quoted isPrint s
  | .bool true => b!"true"
  | .bool false => b!"false"
  | .num n => showN n
  | .list l => b!"[" ++ elemsText l
/-- The elements of a list, separated by commas. -/
def elemsText : List (Value N) → Str
  | [] => b!"]"
  | [v] => valueText v ++ b!"]"
  | v :: w :: l => valueText v ++ b!", " ++ elemsText (w :: l)
end

def spaces (n : Nat) : Str := List.replicate n 0x20

/-- The length of the longest name among the attributes at the beginning. -/
def width : List (Item N) → Nat
  | .attr n _ :: rest => max n.length (width rest)
  | _ => 0

def labelsText (ls : List Str) : Str := ls.flatMap fun l => 0x20 :: quoted isPrint l

/-- An empty line before an attribute which follows a block. -/
def attrGap : Prev → Str
  | .block _ => b!"\n"
  | _ => []

mutual
/-- Prints an item at depth `d` after `prev`. `gohcl` `populateBody` puts an empty line before the
blocks of a field, and before an attribute which follows a block; `hclwrite` `format` indents by two
spaces and aligns the `=` of successive attributes, in column `w`. (Fields with blocks are told apart
by the name of the blocks.) -/
def itemText (d : Nat) (prev : Prev) (w : Nat) : Item N → Str
  | .attr n v =>
    attrGap prev ++ spaces (2 * d) ++ n ++ spaces (w - n.length + 1) ++ b!"= " ++ valueText isPrint showN v ++ b!"\n"
  | .block t ls body =>
    (if prev = .block t then [] else b!"\n") ++
    spaces (2 * d) ++ t ++ labelsText isPrint ls ++ b!" {\n" ++ bodyText (d + 1) .start 0 body ++
    spaces (2 * d) ++ b!"}\n"
/-- Prints the items of a body. -/
def bodyText (d : Nat) (prev : Prev) (w : Nat) : List (Item N) → Str
  | [] => []
  | i :: rest =>
    let w := if prev = .attr then w else width (i :: rest)
    itemText d prev w i ++ bodyText d i.kind w rest
end

/-- ddl.go:52-57 `f.Bytes()`. -/
def print (doc : List (Item N)) : Str := bodyText isPrint showN 0 .start 0 doc

end

end Verif.Hcl
