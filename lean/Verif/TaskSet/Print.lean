import Verif.TaskSet.Parse

/-!
# Model of `/repo/internal/taskset/pg/pg.go:46-80` and `/repo/internal/taskset/sh/sh.go:46-80`: what
these targets do with a task
-/

namespace Verif.TaskSet
open Verif

/-- What a program can do to the world. -/
inductive Effect where
  /-- a line to the standard output -/
  | line (s : Str)
  /-- a statement to a database -/
  | statement (sql : Str)
  /-- a program is started -/
  | program (args : List Str)
deriving DecidableEq, Repr

/-- `fmt.Println` of a `[]string`: the elements with blanks between them, in brackets. -/
def showArgs (args : List Str) : Str := b!"[" ++ (args.intersperse b!" ").flatten ++ b!"]"

/-- pg.go:77-80, sh.go:77-80: `exec` of the tasks that have one for the target (pg.go:49, sh.go:49);
`false` is the error on pg.go:54-56, sh.go:54-56. Demo targets are in `Demo.lean`: `none`. -/
def exec : Target → Kind → Option (List Effect × Bool)
  | .pg, .pg sql => some ([.line (b!"  sql: " ++ sql)], true)
  | .pg, _ => some ([], false)
  | .sh, .sh args => some ([.line (b!"  args: " ++ showArgs args)], true)
  | .sh, _ => some ([], false)
  | .demo _ _, _ => none

end Verif.TaskSet
