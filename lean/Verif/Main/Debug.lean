import Verif.Main.Spec
import Verif.Cmd.LogProps

/-!
# Model of `--debug FILE` (`/repo/internal/cli/register.go`, `/repo/internal/cli/cli.go`)

The file and the messages that go into it, around the commands of `Verif.Main.Model`. No command logs anything between
opening its output and having written to it, so messages are either from before or from after. What they say is a
parameter (the messages of pg are those of `Verif.Pg.Session`, and the library pgx has some of its own). The default
log is left out: see C65 and C70.
-/

namespace Verif.Main
open Verif Cmd

/-- register.go:23-24 `os.OpenFile(name, os.O_CREATE|os.O_APPEND|os.O_WRONLY, 0644)`: creates the file unless there is
one. -/
def openAppend (os : Os) (name : Str) (w : World) : Option World :=
  if os.openFails name then none
  else some { w with files := fun n => if n = name then some (contents w.files name) else w.files n }

/-- `Write` to a file opened with `O_APPEND`, once for every message; the error is not looked at (zap). -/
def append (os : Os) (name : Str) : List Str → World → World
  | [], w => w
  | line :: lines, w => append os name lines (write os (.file name) line w).1

/-- Messages as text. -/
def rendered (render : Level → Str → Str) (msgs : List (Level × Str)) : List Str :=
  msgs.map fun m => render m.1 m.2

/-- logger.go:82, cli.go:45: the messages every run begins with. -/
def greeted (version debug : Str) : List (Level × Str) :=
  [(.info, b!"logging to: " ++ debug), (.info, b!"pgutil version=" ++ version)]

/-- main.go:12-30 `main` with `--debug debug`. The file is opened while the command line is parsed
(also if it turns out to be wrong). `before` and `after` are the messages of the command before and
after its output. -/
def mainDebug {F N : Type} (env : Env F N) (render : Level → Str → Str) (build message debug : Str)
    (parsed : Option Command) (before after : List (Level × Str)) (w : World) : World × Nat :=
  match openAppend env.os debug w with
  | none => finish env.os message .failed w
  | some w =>
    match parsed with
    | none => finish env.os message .failed w
    | some c =>
      let o := c.run env (append env.os debug (rendered render (greeted build debug ++ before)) w)
      finish env.os message o.result (append env.os debug (rendered render after) o.world)

end Verif.Main
