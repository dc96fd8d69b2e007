import Verif.Book.Model
import Verif.Base.Utf8

/-!
# Model of `/repo/internal/commands/runbook_list.go` and `List` of `/repo/internal/runbook/runbook.go`
-/

namespace Verif.Cmd
open Verif

/-- runbook.go:125-128: the loop of `List`. -/
def listLoop : GoMap Str Book.Task → GoMap Str Str → GoMap Str Str
  | [], result => result
  | (id, task) :: rest, result => listLoop rest (result.set id task.target)

/-- runbook.go:115-131 `List`, after `Parse`: the target of each task. -/
def list (book : Book.Runbook) : GoMap Str Str := listLoop book.tasks []

/-- runbook_list.go:22-30: the loop over the tasks, with `longest` and `sorted` so far. -/
def collect : GoMap Str Str → Nat → List Str → Nat × List Str
  | [], longest, sorted => (longest, sorted)
  | (id, _) :: rest, longest, sorted =>
    collect rest (if id.length > longest then id.length else longest) (sorted ++ [id])

/-- `utf8.RuneCountInString`. -/
def runeCount (s : Str) : Nat := (Utf8.decode s).length

/-- The verb `%-*s` of package fmt: the string, padded on the right to the width, counted in runes. A
width above a million is refused (`tooLarge`), with a note in the output and no padding. -/
def padRight (width : Nat) (s : Str) : Str :=
  if width > 1000000 then b!"%!(BADWIDTH)" ++ s
  else s ++ List.replicate (width - runeCount s) 32

/-- runbook_list.go:35-36: the format `"  %-*s  %s\n"`. The value of a missing key is the empty
string. -/
def listLine (tasks : GoMap Str Str) (longest : Nat) (task : Str) : Str :=
  b!"  " ++ padRight longest task ++ b!"  " ++ (match tasks.get? task with
    | some target => target
    | none => []) ++ b!"\n"

/-- runbook_list.go:34-37: the loop over the sorted ids. -/
def printTasks (tasks : GoMap Str Str) (longest : Nat) : List Str → Str
  | [] => []
  | task :: rest => listLine tasks longest task ++ printTasks tasks longest rest

/-- runbook_list.go:15-39 `Run`, after the runbook has been parsed: what is written to stdout. -/
def runList (book : Book.Runbook) : Str :=
  let tasks := list book
  let c := collect tasks 0 []
  b!"Tasks & Targets:\n" ++ printTasks tasks c.1 (sortStrs c.2)

end Verif.Cmd
