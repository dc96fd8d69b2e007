import Verif.Base.GoMap
import Verif.Sh.Model

/-!
# Model of `/repo/internal/taskset/parser/parser.go`, `/repo/internal/taskset/base/base.go:9-26` and
the targets and tasks of `/repo/internal/taskset/{demo,pg,sh}`

The model starts after `gohcl.DecodeBody` has filled the structure of the file (parser.go:53-57):
`Src` is the decoded value. What is left of each block's body, `hcl.Body`, is a type `B` nothing is
assumed of. Decoding it into a target or a task (parser.go:95, 126) sets only the fields with an `hcl`
tag, each from the attribute named in the tag, or reports an error: `Decoder` gives the values of those
fields.
-/

namespace Verif.TaskSet
open Verif

/-- base.go:9-14 `type Task struct`. -/
structure BaseTask where
  target : Str := []
  after : List Str := []
  provide : List Str := []
  require : List Str := []
deriving DecidableEq, Repr

/-- base.go:16-22 `Dependencies`: the loop over `After`, the dependencies so far, then `Require`. -/
def BaseTask.dependenciesLoop : List Str → List Str → List Str
  | [], deps => deps
  | id :: rest, deps => dependenciesLoop rest (deps ++ [b!"task:" ++ id])

/-- base.go:16-22 `Dependencies`. -/
def BaseTask.dependencies (t : BaseTask) : List Str :=
  dependenciesLoop t.after [] ++ t.require

/-- base.go:24-26 `Provides`. -/
def BaseTask.provides (t : BaseTask) : List Str := t.provide

/-- The types of tasks, with their own fields: demo/echo.go:12-14, demo/fail.go:12-14, demo/rev.go:8-10,
demo/rot13.go:8-10, demo/sleep.go:12-15, pg/pg.go:67-70, sh/sh.go:67-70. -/
inductive Kind where
  | echo
  | fail
  | rev
  | rot13
  | sleep (seconds : Int)
  | pg (sql : Str)
  | sh (args : List Str)
deriving DecidableEq, Repr

/-- A task: its type with the embedded `base.Task`. -/
structure Task where
  base : BaseTask := {}
  kind : Kind
deriving DecidableEq, Repr

/-- The target types: demo/demo.go:34-41, pg/pg.go:32-34, sh/sh.go:32-34 (loggers and writers
omitted). -/
inductive Target where
  | demo (maxConcurrency : Int) (string : Str)
  | pg
  | sh
deriving DecidableEq, Repr

/-- The target factories (types/types.go:34-36). -/
inductive Factory where
  | demo
  | pg
  | sh
deriving DecidableEq, Repr

/-- `NewTarget`: demo/demo.go:21-28, pg/pg.go:21-25, sh/sh.go:21-25. -/
def Factory.newTarget : Factory → Target
  | .demo => .demo 1 []
  | .pg => .pg
  | .sh => .sh

/-- The errors of parser.go and of `NewTask`, and diagnostics of the decoder. -/
inductive ParseErr where
  | invalidTargetType
  | invalidTarget
  | invalidTaskType
  | diagnostics (msg : Str)
deriving DecidableEq, Repr

/-- The result of a Go function that can return an error or panic. -/
inductive Res (α : Type) where
  | ok (a : α)
  | error (e : ParseErr)
  | panic

/-- `NewTask`: demo/demo.go:44-58, pg/pg.go:37-39, sh/sh.go:37-39. -/
def Target.newTask : Target → Str → Except ParseErr Task
  | .demo _ _, typ =>
    if typ = b!"echo" then .ok { kind := .echo }
    else if typ = b!"fail" then .ok { kind := .fail }
    else if typ = b!"rev" then .ok { kind := .rev }
    else if typ = b!"rot13" then .ok { kind := .rot13 }
    else if typ = b!"sleep" then .ok { kind := .sleep 0 }
    else .error .invalidTaskType
  | .pg, _ => .ok { kind := .pg [] }
  | .sh, _ => .ok { kind := .sh [] }

/-- `gohcl.DecodeBody` on a body, for the sets of tagged fields there are. -/
structure Decoder (B : Type) where
  /-- demo/demo.go:39-40: `max_concurrency`, optional, and `string` -/
  demoTarget : B → Except Str (Option Int × Str)
  /-- pg/pg.go:69: `sql` -/
  sql : B → Except Str Str
  /-- sh/sh.go:69: `args` -/
  args : B → Except Str (List Str)
  /-- structures without tagged fields: only an empty body is accepted -/
  nothing : B → Except Str Unit

/-- parser.go:95: decoding into a target. -/
def Target.decode {B : Type} (d : Decoder B) (body : B) : Target → Except Str Target
  | .demo n _ =>
    match d.demoTarget body with
    | .error m => .error m
    | .ok (some k, s) => .ok (.demo k s)
    | .ok (none, s) => .ok (.demo n s)
  | t =>
    match d.nothing body with
    | .error m => .error m
    | .ok () => .ok t

/-- parser.go:126: decoding into a task. The embedded structure has no tag, nor has
`Sleep.Seconds`. -/
def Task.decode {B : Type} (d : Decoder B) (body : B) (t : Task) : Except Str Task :=
  match t.kind with
  | .pg _ =>
    match d.sql body with
    | .error m => .error m
    | .ok s => .ok { t with kind := .pg s }
  | .sh _ =>
    match d.args body with
    | .error m => .error m
    | .ok a => .ok { t with kind := .sh a }
  | _ =>
    match d.nothing body with
    | .error m => .error m
    | .ok () => .ok t

/-- parser.go:19-24 `type target struct`. -/
structure TargetSrc (B : Type) where
  typ : Str
  id : Str
  config : B

/-- parser.go:26-36 `type task struct`. -/
structure TaskSrc (B : Type) where
  typ : Str
  id : Str
  target : Str := []
  after : List Str := []
  provide : List Str := []
  require : List Str := []
  config : B

/-- parser.go:14-17 `type taskSet struct`. -/
structure Src (B : Type) where
  targets : List (TargetSrc B)
  tasks : List (TaskSrc B)

/-- types/types.go:4-7 `type TaskSet struct`. -/
structure Loaded where
  targets : GoMap Str (GoMap Str Target)
  tasks : GoMap Str Task

/-- parser.go:79-86 `loadDefaultTargets`: the remaining entries of `p.Targets`, and the groups so far. -/
def loadDefaultTargets : GoMap Str Factory → GoMap Str (GoMap Str Target) →
    GoMap Str (GoMap Str Target)
  | [], g => g
  | (typ, f) :: rest, g => loadDefaultTargets rest (g.set typ [([], f.newTarget)])

/-- parser.go:88-102 `loadExplicitTargets`. Writing to the map of a type without one panics. -/
def loadExplicitTargets {B : Type} (d : Decoder B) (p : GoMap Str Factory) :
    List (TargetSrc B) → GoMap Str (GoMap Str Target) → Res (GoMap Str (GoMap Str Target))
  | [], g => .ok g
  | t :: rest, g =>
    match p.get? t.typ with
    | none => .error .invalidTargetType
    | some f =>
      match f.newTarget.decode d t.config with
      | .error m => .error (.diagnostics m)
      | .ok target =>
        match g.get? t.typ with
        | none => .panic
        | some m => loadExplicitTargets d p rest (g.set t.typ (m.set t.id target))

/-- parser.go:106-110: `strings.SplitN(t.Type, "/", 2)`. -/
def splitType (s : Str) : Str × Str :=
  match Sh.indexByte 47 s with
  | some i => (s.take i, s.drop (i + 1))
  | none => (s, [])

/-- parser.go:106-130: the body of the loop. -/
def loadTask {B : Type} (d : Decoder B) (g : GoMap Str (GoMap Str Target)) (t : TaskSrc B) :
    Except ParseErr Task :=
  match g.get? (splitType t.typ).1 with
  | none => .error .invalidTargetType
  | some m =>
    match m.get? t.target with
    | none => .error .invalidTarget
    | some target =>
      match target.newTask (splitType t.typ).2 with
      | .error e => .error e
      | .ok task =>
        match task.decode d t.config with
        | .error m => .error (.diagnostics m)
        | .ok task => .ok task

/-- parser.go:104-135 `loadTasks`. -/
def loadTasks {B : Type} (d : Decoder B) (g : GoMap Str (GoMap Str Target)) :
    List (TaskSrc B) → GoMap Str Task → Except ParseErr (GoMap Str Task)
  | [], m => .ok m
  | t :: rest, m =>
    match loadTask d g t with
    | .error e => .error e
    | .ok task => loadTasks d g rest (m.set t.id task)

/-- parser.go:59-76: `Parse` after the file has been decoded; `p` is the map of registered factories
(parser.go:39-41). -/
def parse {B : Type} (d : Decoder B) (p : GoMap Str Factory) (src : Src B) : Res Loaded :=
  match loadExplicitTargets d p src.targets (loadDefaultTargets p []) with
  | .panic => .panic
  | .error e => .error e
  | .ok g =>
    match loadTasks d g src.tasks [] with
    | .error e => .error e
    | .ok tasks => .ok { targets := g, tasks := tasks }

end Verif.TaskSet
