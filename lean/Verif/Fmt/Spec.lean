import Verif.Hcl.TextSpec
import Verif.Dag.Spec

/-!
# Reading messages (specification)

String literals are those of the Go specification ("String literals", "Rune literals"), without octal
escapes.
-/

namespace Verif.Fmt
open Verif

/-- Reads a literal after the quote at its beginning: its value, and what follows it. -/
def literal : Str → Option (Str × Str)
  | [] => none
  | 0x22 :: s => some ([], s)
  | 0x0A :: _ => none
  | 0x5C :: 0x61 :: s => (literal s).map fun x => (0x07 :: x.1, x.2)
  | 0x5C :: 0x62 :: s => (literal s).map fun x => (0x08 :: x.1, x.2)
  | 0x5C :: 0x66 :: s => (literal s).map fun x => (0x0C :: x.1, x.2)
  | 0x5C :: 0x6E :: s => (literal s).map fun x => (0x0A :: x.1, x.2)
  | 0x5C :: 0x72 :: s => (literal s).map fun x => (0x0D :: x.1, x.2)
  | 0x5C :: 0x74 :: s => (literal s).map fun x => (0x09 :: x.1, x.2)
  | 0x5C :: 0x76 :: s => (literal s).map fun x => (0x0B :: x.1, x.2)
  | 0x5C :: 0x5C :: s => (literal s).map fun x => (0x5C :: x.1, x.2)
  | 0x5C :: 0x22 :: s => (literal s).map fun x => (0x22 :: x.1, x.2)
  | 0x5C :: 0x78 :: a :: b :: s =>
    (Hcl.Read.hexNum 0 [a, b]).bind fun n => (literal s).map fun x => (UInt8.ofNat n :: x.1, x.2)
  | 0x5C :: 0x75 :: a :: b :: c :: d :: s =>
    ((Hcl.Read.hexNum 0 [a, b, c, d]).bind Hcl.Read.charOf).bind fun r =>
      (literal s).map fun x => (r ++ x.1, x.2)
  | 0x5C :: 0x55 :: a :: b :: c :: d :: e :: f :: g :: h :: s =>
    ((Hcl.Read.hexNum 0 [a, b, c, d, e, f, g, h]).bind Hcl.Read.charOf).bind fun r =>
      (literal s).map fun x => (r ++ x.1, x.2)
  | 0x5C :: _ => none
  | c :: s => (literal s).map fun x => (c :: x.1, x.2)

/-- `text` is a literal for `value`. -/
def LiteralFor (text value : Str) : Prop := ∃ body, text = 0x22 :: body ∧ literal body = some (value, [])

/-- `text` is a list of literals, separated by blanks. -/
inductive ListFor : Str → List Str → Prop
  | nil : ListFor [] []
  | one {t v} : LiteralFor t v → ListFor t [v]
  | more {t v u w l} : LiteralFor t v → ListFor u (w :: l) → ListFor (t ++ b!" " ++ u) (v :: w :: l)

/-- The message says that these nodes are a cycle. -/
def TellsCycle (message : Str) (cycle : List Str) : Prop :=
  ∃ text, ListFor text cycle ∧ message = b!"circular dependency detected: [" ++ text ++ b!"]"

/-- The message says that the node refers to another one which does not exist. -/
def TellsMissing (message node edge : Str) : Prop :=
  ∃ t u, LiteralFor t node ∧ LiteralFor u edge ∧
    message = b!"node " ++ t ++ b!" references non-existent node " ++ u

/-- The message says that the command is not allowed. -/
def TellsCommand (message command : Str) : Prop :=
  ∃ t, LiteralFor t command ∧ message = b!"illegal command: " ++ t

/-- `strconv.IsPrint` for the characters that matter here: control characters are not printed. -/
def PrintsNoControls (isPrint : Nat → Bool) : Prop := ∀ r, r < 0x20 ∨ 0x7F ≤ r ∧ r < 0xA0 → isPrint r = false

/-- No control characters of ASCII: in particular one line. -/
def OneLine (s : Str) : Prop := ∀ c ∈ s, 0x20 ≤ c.toNat ∧ c.toNat ≠ 0x7F

end Verif.Fmt
