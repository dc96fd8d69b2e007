import Verif.Json.SecretSpec
import Verif.Run.Model

/-!
# What can be seen of a run by one who sees everything but passwords

The words of C129.
-/

namespace Verif.Pg
open Verif

/-- What is left of an event if one does not look at the password. -/
def Event.hide : Event → Event
  | .connect cfg ok => .connect { cfg with password := [] } ok
  | .sleep ms => .sleep ms

/-- The settings differ in the password only. -/
def SameCfg (c c' : ConnConfig) : Prop :=
  c' = { c with password := c'.password } ∧ (c.password = [] ↔ c'.password = [])

end Verif.Pg

namespace Verif.Run
open Verif Book Json.Secret

/-- What is left of what went over the network if one does not look at passwords. -/
def hideNet (net : List (Str × Pg.Event)) : List (Str × Pg.Event) := net.map fun p => (p.1, p.2.hide)

/-- The worlds differ in passwords only. -/
structure SameWorld (w w' : World) : Prop where
  targets : Maps SameTarget w.targets w'.targets
  stdout : w'.stdout = w.stdout
  calls : w'.calls = w.calls
  conns : w'.conns = w.conns
  net : hideNet w'.net = hideNet w.net
  closed : w'.closed = w.closed

/-- The two programs look the same to one who sees everything but passwords: the state of the runner,
with what it has logged, what has been printed, which commands and statements have been run, and with
which outcome, which connections have been opened and closed. -/
inductive Looks : Prog → Prog → Prop
  | rejected (e : Err) : Looks (.rejected e) (.rejected e)
  | panicked : Looks .panicked .panicked
  | running {book book' : Runbook} {st : Runner.St} {w w' : World} (hb : SameBook book book')
      (hw : SameWorld w w') : Looks (.running book st w) (.running book' st w')

end Verif.Run
