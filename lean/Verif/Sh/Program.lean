import Verif.Sh.Model
import Verif.Path.Model
import Verif.Path.Spec

/-!
# Which program a command starts: `os/exec` as called by `/repo/internal/runbook/sh/exec.go:22-28`

`exec.CommandContext`, `exec.LookPath` and `Cmd.Start` are functions of Go's library, not of the
repository; they are modelled from the source of Go 1.11-1.14, with which the repository is built.  (From
Go 1.19 on, a command found in a relative directory of PATH is an error instead.)
-/

namespace Verif.Sh
open Verif Path

/-- What the process finds around it. -/
structure Machine where
  /-- `os.Getwd` -/
  wd : Str
  /-- `os.Environ()` -/
  environ : List Str
  /-- the places at which there is a file that may be executed (`os/exec` `findExecutable`: not a
  directory, and with an execute bit) -/
  exe : List Str → Bool

/-- `os.Getenv`: the first entry for the name (`syscall.copyenv` keeps the first), or the empty
string. -/
def getenv (k : Str) : List Str → Str
  | [] => []
  | kv :: env =>
    match indexByte 61 kv with
    | some i => if kv.take i = k then kv.drop (i + 1) else getenv k env
    | none => getenv k env

/-- The place a path leads to in the process: `os.Stat` resolves it from the working directory. -/
def Machine.place (m : Machine) (path : Str) : List Str := Path.Spec.loc (Path.Spec.loc [] m.wd) path

/-- os/exec/lp_unix.go `LookPath`: the loop over the directories. -/
def findIn (m : Machine) (file : Str) : List Str → Option Str
  | [] => none
  | d :: ds =>
    let path := Path.join (if d = [] then b!"." else d) file
    if m.exe (m.place path) then some path else findIn m file ds

/-- os/exec/lp_unix.go `LookPath`; `none` is an error. -/
def lookPath (m : Machine) (file : Str) : Option Str :=
  if containsSlash file then (if m.exe (m.place file) then some file else none)
  else findIn m file (Path.splitList (getenv b!"PATH" m.environ))

/-- os/exec/exec.go `Command`: `cmd.Path`; `none` is `cmd.lookPathErr`, which `Start` returns. -/
def cmdPath (m : Machine) (name : Str) : Option Str :=
  if Path.base name = name then lookPath m name else some name

/-- sh/exec.go:22-28, `cmd.Run()`: the place of the program that is executed, in the child process and
after changing to the directory `cmd.Dir`; `none` if none is. -/
def program (m : Machine) (c : Command) : Option (List Str) :=
  (cmdPath m c.path).bind fun path =>
    if path ≠ [] ∧ m.exe (Path.Spec.loc (Path.Spec.loc [] c.dir) path) then
      some (Path.Spec.loc (Path.Spec.loc [] c.dir) path)
    else none

end Verif.Sh
