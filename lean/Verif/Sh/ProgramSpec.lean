import Verif.Sh.Spec
import Verif.Path.Spec

/-!
# Which program a command names

A command with a `/` in its name is the path of a program, from the directory the command runs in.  Any
other command is a name to look for in the directories of PATH, one after another.
-/

namespace Verif.Sh.Spec
open Verif Path.Spec

/-- The directories of a PATH, separated by `:`. -/
def dirs (path : Str) : List Str := if path = [] then [] else parts 58 path

/-- `d` is the first of the directories in which, seen from `dir`, there is an executable file
`name`. -/
def FirstWith (exe : List Str → Bool) (dir : List Str) (name : Str) (ds : List Str) (d : Str) : Prop :=
  ∃ pre post, ds = pre ++ d :: post ∧ exe (step (loc dir d) name) = true ∧
    ∀ x ∈ pre, exe (step (loc dir x) name) = false

/-- The program at `l` is the one `arg0` names in the directory `dir` and the environment `env`. -/
inductive Names (exe : List Str → Bool) (dir : List Str) (env : List Str) (arg0 : Str) : List Str → Prop
  | path : (47 : UInt8) ∈ arg0 → exe (loc dir arg0) = true → Names exe dir env arg0 (loc dir arg0)
  | name {v d : Str} : (47 : UInt8) ∉ arg0 → arg0 ≠ [] → LookupLast env b!"PATH" v →
      FirstWith exe dir arg0 (dirs v) d → Names exe dir env arg0 (step (loc dir d) arg0)

end Verif.Sh.Spec
