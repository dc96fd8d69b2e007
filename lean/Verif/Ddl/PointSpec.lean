import Verif.Ddl.ErrorProps
import Verif.Ragel.Machine

/-!
# C122: where a definition stops making sense

Stated in terms of the parsers' results alone: a text that is not accepted is either the beginning of one that is, or it
has a first byte at which it ceases to be.
-/

namespace Verif.Ddl
open Verif Verif.Ragel

/-- The text can be continued to one that is accepted. -/
def Viable {α : Type} (parse : Str → Outcome α) (s : Str) : Prop := ∃ rest x, parse (s ++ rest) = .ok x

/-- The text makes sense up to position `pos` and, unless it ends there, not with the byte there. -/
def StopsAt {α : Type} (parse : Str → Outcome α) (s : Str) (pos : Nat) : Prop :=
  pos ≤ s.length ∧ Viable parse (s.take pos) ∧ (pos < s.length → ¬ Viable parse (s.take (pos + 1)))

/-- The message shows the line of position `pos`, with a caret under it. -/
def Shows (s : Str) (pos : Nat) (msg : Str) : Prop :=
  ∃ line col, LineAt s pos line col ∧ msg = line ++ b!"\n" ++ List.replicate col 32 ++ b!"^"

/-- The message tells where the text stops making sense: at a byte, which it shows, or at its end. -/
def Points {α : Type} (parse : Str → Outcome α) (s msg : Str) : Prop :=
  ∃ pos, StopsAt parse s pos ∧
    (pos < s.length ∧ Shows s pos msg ∨ pos = s.length ∧ msg = b!"error after end of data")

end Verif.Ddl
