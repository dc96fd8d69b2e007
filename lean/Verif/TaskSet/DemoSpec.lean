import Verif.TaskSet.Demo
import Verif.Run.Spec

/-!
# What the tasks of a demo target should do

`Run.Spec.mangle`, `Run.Spec.rot13` and `Run.Spec.utf8` are the texts reversed and rotated.
-/

namespace Verif.TaskSet.Demo.Spec
open Verif TaskSet Run.Spec

/-- How many of the tasks are of this kind. -/
def count (k : Kind) (js : List Job) : Nat := js.countP fun j => j.2 = k

/-- The text after the tasks, one after the other. -/
def text (cs : List Char) (js : List Job) : Str := utf8 (mangle (count .rev js) (count .rot13 js) cs)

/-- What the tasks print, one after the other: each `echo` the text the tasks before it left. -/
inductive Prints (cs : List Char) : List Job → Str → Prop
  | nil : Prints cs [] []
  | echo {js : List Job} {out : Str} {id : Str} :
      Prints cs js out → Prints cs (js ++ [(id, .echo)]) (out ++ text cs js ++ [10])
  | silent {js : List Job} {out : Str} {j : Job} :
      Prints cs js out → j.2 ≠ .echo → Prints cs (js ++ [j]) out

/-- The error a task ends with. -/
def Ends : Kind → Option Err → Prop
  | .echo, e | .rev, e | .rot13, e | .sleep _, e => e = none
  | .fail, e => e = some .fail
  | .pg _, e | .sh _, e => e = some .invalidTask

/-- The state of a target is what executing the tasks `order`, one at a time, leads to; these are all
the tasks that have ended, and perhaps some that are executing. -/
structure Explained (cs : List Char) (s : Sys) (order : List Job) : Prop where
  string : s.shared.string = text cs order
  stdout : Prints cs order s.shared.stdout
  ended : ∃ more, order.Perm (s.run.ran.map Prod.fst ++ more) ∧
    ∃ rest, s.run.executing.Perm (more ++ rest)

end Verif.TaskSet.Demo.Spec
