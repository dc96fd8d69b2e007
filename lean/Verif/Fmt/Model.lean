import Verif.Hcl.Text
import Verif.Dag.Model
import Verif.Sh.Model

/-!
# The messages of errors about names

`%q` of package `fmt`, for strings and lists of strings, and the messages that use it. The model follows
`strconv.Quote` of Go 1.12; it is a library, not code of `/repo`.
-/

namespace Verif.Fmt
open Verif

/-- `strconv` `appendEscapedRune`, for the quote `"`. `isPrint` is `strconv.IsPrint`. -/
def escapeRune (isPrint : Nat → Bool) (r : Nat) : Str :=
  if r = 0x22 ∨ r = 0x5C then [0x5C, UInt8.ofNat r]
  else if isPrint r then Utf8.encode1 r
  else if r = 0x07 then b!"\\a"
  else if r = 0x08 then b!"\\b"
  else if r = 0x0C then b!"\\f"
  else if r = 0x0A then b!"\\n"
  else if r = 0x0D then b!"\\r"
  else if r = 0x09 then b!"\\t"
  else if r = 0x0B then b!"\\v"
  else if r < 0x20 then b!"\\x" ++ Hcl.hexDigits 2 r
  else if r < 0x10000 then b!"\\u" ++ Hcl.hexDigits 4 r
  else b!"\\U" ++ Hcl.hexDigits 8 r

/-- `strconv` `appendQuotedWith`: the text between the quotes. The first number counts the bytes of the
current rune still to be skipped. -/
def quoteSkip (isPrint : Nat → Bool) : Nat → Str → Str
  | _, [] => []
  | k + 1, _ :: s => quoteSkip isPrint k s
  | 0, b :: s =>
    let (r, width) := Utf8.decode1 b s
    if width = 1 ∧ r = Utf8.runeError then b!"\\x" ++ Hcl.hexDigits 2 b.toNat ++ quoteSkip isPrint 0 s
    else escapeRune isPrint r ++ quoteSkip isPrint (width - 1) s

/-- `strconv.Quote`, and `%q` for a string. -/
def quote (isPrint : Nat → Bool) (s : Str) : Str := 0x22 :: (quoteSkip isPrint 0 s ++ [0x22])

/-- `fmt` `printValue`: the elements of a slice, separated by blanks. -/
def quoteElems (isPrint : Nat → Bool) : List Str → Str
  | [] => []
  | [s] => quote isPrint s
  | s :: t :: l => quote isPrint s ++ b!" " ++ quoteElems isPrint (t :: l)

/-- `%q` for a list of strings. -/
def quoteList (isPrint : Nat → Bool) (l : List Str) : Str := b!"[" ++ quoteElems isPrint l ++ b!"]"

/-- dag/errors.go:9-11, 18-20 `Error`. -/
def dagMessage (isPrint : Nat → Bool) : Dag.DagError → Str
  | .circular cycle => b!"circular dependency detected: " ++ quoteList isPrint cycle
  | .invalidEdge node edge =>
    b!"node " ++ quote isPrint node ++ b!" references non-existent node " ++ quote isPrint edge

/-- exec.go:34, 47: the errors of `Check`. -/
def checkMessage (isPrint : Nat → Bool) : Sh.CheckError → Str
  | .tooFewArgs => b!"too few args"
  | .illegalCommand arg0 => b!"illegal command: " ++ quote isPrint arg0

end Verif.Fmt
