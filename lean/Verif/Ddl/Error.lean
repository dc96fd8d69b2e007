import Verif.Sh.Model

/-!
# Model of `/repo/internal/ddl/parser_utils.go`: parse errors
-/

namespace Verif.Ddl
open Verif

/-- parser_utils.go:37-50: the loop of `parseError.Error`; `none` = still looping after `fuel`
iterations. -/
def errLoop : Nat → Int → Str → Option (Int × Str)
  | 0, _, _ => none
  | fuel + 1, cs, data =>
    match Sh.indexByte 10 data with
    | none => some (cs, data)
    | some idx =>
      if (idx : Int) > cs then some (cs, data.take idx)
      else errLoop fuel (cs - (idx + 1)) (data.drop (idx + 1))

/-- `fmt.Sprintf("%*s", w, "^")`: right-aligned in `w` columns; a negative width left-aligns; fmt
refuses widths beyond a million. -/
def caret (w : Int) : Str :=
  if w > 1000000 ∨ w < -1000000 then b!"%!(BADWIDTH)^"
  else if w < 0 then b!"^" ++ List.replicate (w.natAbs - 1) 32
  else List.replicate (w.toNat - 1) 32 ++ b!"^"

/-- parser_utils.go:29-53 `parseError.Error`; `none` = does not return (shown impossible). -/
def parseErrorString (cs : Int) (data : Str) : Option Str :=
  if (data.length : Int) ≤ cs then some b!"error after end of data"
  else
    match errLoop (data.length + 1) cs data with
    | none => none
    | some (cs', line) => some (line ++ b!"\n" ++ caret (cs' + 1))

end Verif.Ddl
