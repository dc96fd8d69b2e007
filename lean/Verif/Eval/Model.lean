import Verif.Json.Model
import Verif.Base.Utf8

/-!
# Model of `runbook.Eval` (`/repo/internal/runbook/runbook.go`:86-112)

The file has been evaluated to a JSON value (`Load` runs Jsonnet, which is not modelled).  `Unmarshal` of
`encoding/json` and the library `github.com/hokaccha/go-prettyjson` (v0.0.0-20190818114111), whose sources
are not in the repository, are modelled from knowledge.

Simplifications:
* `Marshal` of prettyjson first writes the tree with `encoding/json` and reads that again with
  `UseNumber`; this changes nothing but numbers, which become the text written for them;
* the strings of a tree are valid UTF-8, which is what `Unmarshal` makes of any text.
-/

namespace Verif.Eval
open Verif Json

/-- The numbers of a tree, `float64`: how they are read from and written to JSON. -/
structure Floats (F : Type) where
  /-- `strconv.ParseFloat(s, 64)`; `none` if the number is too large -/
  parse : Str → Option F
  /-- `encoding/json` encode.go `floatEncoder.encode` -/
  print : F → Str

/-- What `json.Unmarshal` puts into an `interface{}`. -/
inductive Tree (F : Type) where
  | null
  | bool (b : Bool)
  | num (x : F)
  | str (s : Str)
  | arr (l : List (Tree F))
  | obj (m : List (Str × Tree F))

section
variable {F : Type} (fl : Floats F)

mutual
/-- `json.Unmarshal` into an `interface{}` (runbook.go:97-101) -/
def decode : Value → Option (Tree F)
  | .null => some .null
  | .bool b => some (.bool b)
  | .num lit => (fl.parse lit).map .num
  | .str s => some (.str s)
  | .arr l => (decodeElems l).map .arr
  | .obj l => (decodeMembers l []).map .obj

/-- The elements of an array. -/
def decodeElems : List Value → Option (List (Tree F))
  | [] => some []
  | v :: l =>
    match decode v with
    | none => none
    | some x => (decodeElems l).map (x :: ·)

/-- The members of an object, put into a map. -/
def decodeMembers : List (Str × Value) → GoMap Str (Tree F) → Option (GoMap Str (Tree F))
  | [], m => some m
  | (k, v) :: l, m =>
    match decode v with
    | none => none
    | some x => decodeMembers l (m.set k x)
end

end

/-- A digit of `\u00XX` (encoding/json `const hex`). -/
def hexDigit (n : Nat) : UInt8 := if n < 10 then UInt8.ofNat (48 + n) else UInt8.ofNat (87 + n)

/-- encoding/json encode.go `encodeState.string` with `escapeHTML = false`: one character -/
def quoteRune (r : Nat) : Str :=
  if r < 0x80 then
    if r = 0x22 ∨ r = 0x5C then [0x5C, UInt8.ofNat r]
    else if r = 10 then b!"\\n"
    else if r = 13 then b!"\\r"
    else if r = 9 then b!"\\t"
    else if r < 0x20 then b!"\\u00" ++ [hexDigit (r / 16), hexDigit (r % 16)]
    else [UInt8.ofNat r]
  else if r = 0x2028 ∨ r = 0x2029 then b!"\\u202" ++ [hexDigit (r % 16)]
  else Utf8.encode1 r

/-- encoding/json: a string -/
def quote (s : Str) : Str := b!"\"" ++ (Utf8.decode s).flatMap quoteRune ++ b!"\""

/-- github.com/fatih/color `Color.wrap`: `on` says whether there are colours. -/
def paint (on : Bool) (code s : Str) : Str :=
  if on then b!"\x1b[" ++ code ++ b!"m" ++ s ++ b!"\x1b[0m" else s

/-- prettyjson.go `generateIndent`, with an indent of 2 -/
def indent (depth : Nat) : Str := List.replicate (2 * depth) 32

/-- `strings.Join` with `",\n"` -/
def joinRows : List Str → Str
  | [] => []
  | [r] => r
  | r :: r' :: rs => r ++ b!",\n" ++ joinRows (r' :: rs)

section
variable {F : Type} (fl : Floats F) (on : Bool)

mutual
/-- prettyjson.go `pretty`, `processString`, `processMap`, `processArray` -/
def pretty : Nat → Tree F → Str
  | _, .null => paint on b!"30;1" b!"null"
  | _, .bool b => paint on b!"33;1" (if b then b!"true" else b!"false")
  | _, .num x => paint on b!"36;1" (fl.print x)
  | _, .str s => paint on b!"32;1" (quote s)
  | depth, .arr l =>
    if l = [] then b!"[]"
    else b!"[\n" ++ joinRows (prettyElems depth l) ++ b!"\n" ++ indent (depth - 1) ++ b!"]"
  | depth, .obj m =>
    if m = [] then b!"{}"
    else b!"{\n" ++
      -- the rows are made first and put in order then; the library puts the keys in order first
      joinRows ((sortStrs (m.map Prod.fst)).filterMap (GoMap.get? (prettyRows depth m))) ++
      b!"\n" ++ indent (depth - 1) ++ b!"}"

/-- The lines of an array. -/
def prettyElems : Nat → List (Tree F) → List Str
  | _, [] => []
  | depth, v :: l => (indent depth ++ pretty (depth + 1) v) :: prettyElems depth l

/-- The lines of an object, each with its key. The key is printed with `"%s"`. -/
def prettyRows : Nat → List (Str × Tree F) → List (Str × Str)
  | _, [] => []
  | depth, (k, v) :: m =>
    (k, indent depth ++ paint on b!"34;1" (b!"\"" ++ k ++ b!"\"") ++ b!": " ++ pretty (depth + 1) v) ::
      prettyRows depth m
end

end

/-- runbook.go:97-111 `Eval`, from the value of the file on. `noColor` is `color.NoColor` of the package
github.com/fatih/color: standard output is not a terminal, or `TERM` is `dumb`. -/
def eval {F : Type} (fl : Floats F) (noColor color : Bool) (doc : Value) : Option Str :=
  (decode fl doc).map (pretty fl (color && !noColor) 1)

end Verif.Eval
