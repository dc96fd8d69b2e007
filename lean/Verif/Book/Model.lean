import Verif.Sh.Model
import Verif.Demo.Model

/-!
# Model of `/repo/internal/runbook/parser/parser.go` with the target classes of
`/repo/internal/runbook/{pg,sh,demo}`

The model starts after the first JSON decode (parser.go:57-66): `Src` is the decoded value.  The
decoding of the opaque `config` messages into a target or task (parser.go:91-99 and 127-135) is a
parameter, `Decoder`, about which nothing is assumed.
-/

namespace Verif.Book
open Verif

/-- pg/pg.go:19-33 `type Target struct` (logger and connection omitted). -/
structure PgTarget where
  /-- pg.go:23, initialised by `NewTarget` (pg.go:44) -/
  concurrency : Int := 1
  host : Str := []
  port : UInt16 := 0
  sslmode : Str := []
  username : Str := []
  password : Str := []
  database : Str := []
  connectRetries : Int := 0
deriving DecidableEq, Repr

/-- The implementations of `types.Target` (types/types.go:22-29) registered by `newParser`
(runbook.go:31-43). -/
inductive Target where
  | pg (t : PgTarget)
  | sh (t : Sh.Target)
  | demo (t : Demo.Target)
deriving DecidableEq, Repr

/-- The implementations of `types.TaskConfig` (types/types.go:43-45). -/
inductive Config where
  /-- pg/exec.go:11-14 -/
  | pgExec (sql : Str)
  /-- sh/exec.go:14-19 -/
  | shExec (x : Sh.Exec)
  /-- demo/tasks.go:12 -/
  | echo
  /-- demo/tasks.go:27 -/
  | fail
  /-- demo/tasks.go:43 -/
  | rev
  /-- demo/tasks.go:64 -/
  | rot13
  /-- demo/tasks.go:92-94 -/
  | sleep (x : Demo.Sleep)
deriving DecidableEq

/-- The errors of parser.go and of the Analyze/Check/NewTaskConfig methods. -/
inductive Err where
  | invalidTargetClass
  | invalidTarget
  | invalidTaskClass
  | invalidConcurrency
  | missingSQL
  | command (e : Sh.CheckError)
  | json (msg : Str)
deriving DecidableEq, Repr

/-- runbook.go:30-44, the registered factories, and their `NewTarget` methods: pg/pg.go:40-46,
sh/sh.go:38-47, demo/demo.go:30-35. `none` is an unregistered class. -/
def newTarget (basedir : Str) (class_ : Str) : Option Target :=
  if class_ = b!"pg" then some (.pg {})
  else if class_ = b!"sh" then some (.sh { basedir := basedir })
  else if class_ = b!"demo" then some (.demo {})
  else none

/-- `Analyze`: pg/pg.go:49-54, sh/sh.go:50-55, demo/demo.go:38-40. `none` is a nil error. -/
def Target.analyze : Target → Option Err
  | .pg t => if t.concurrency < 1 then some .invalidConcurrency else none
  | .sh t => if t.concurrency < 1 then some .invalidConcurrency else none
  | .demo _ => none

/-- `ConcurrencyLimit`: pg/pg.go:57-59, sh/sh.go:58-60, demo/demo.go:43-45. -/
def Target.concurrencyLimit : Target → Int
  | .pg t => t.concurrency
  | .sh t => t.concurrency
  | .demo _ => 1

/-- `NewTaskConfig`: pg/pg.go:70-76, sh/sh.go:71-77, demo/demo.go:56-70. -/
def Target.newTaskConfig : Target → Str → Except Err Config
  | .pg _, class_ =>
    if class_ = b!"" ∨ class_ = b!"exec" then .ok (.pgExec []) else .error .invalidTaskClass
  | .sh _, class_ =>
    if class_ = b!"" ∨ class_ = b!"exec" then .ok (.shExec {}) else .error .invalidTaskClass
  | .demo _, class_ =>
    if class_ = b!"echo" then .ok .echo
    else if class_ = b!"fail" then .ok .fail
    else if class_ = b!"rev" then .ok .rev
    else if class_ = b!"rot13" then .ok .rot13
    else if class_ = b!"sleep" then .ok (.sleep ⟨0⟩)
    else .error .invalidTaskClass

/-- `Check`: pg/exec.go:21-26, sh/exec.go:32-37, demo/tasks.go:20-22, 36-38, 57-59, 85-87, 104-109.
`Sleep.Check` updates the config, hence the result. -/
def Config.check : Config → Except Err Config
  | .pgExec sql => if sql = [] then .error .missingSQL else .ok (.pgExec sql)
  | .shExec x =>
    match x.check with
    | some e => .error (.command e)
    | none => .ok (.shExec x)
  | .sleep x => .ok (.sleep x.check)
  | c => .ok c

/-- `dec.Decode(target)` and `dec.Decode(taskConfig)` with unknown fields disallowed
(parser.go:92-98, 128-134): an arbitrary function of the message and the default value. -/
structure Decoder where
  target : Str → Target → Except Str Target
  config : Str → Config → Except Str Config

/-- parser.go:22-25: one decoded target. -/
structure TargetSrc where
  class_ : Str
  config : Str
deriving DecidableEq, Repr

/-- parser.go:26-31: one decoded task. -/
structure TaskSrc where
  after : List Str
  target : Str
  message : Str
  config : Str
deriving DecidableEq, Repr

/-- parser.go:21-32 `type runbook struct`.  The values are pointers: `none` is nil, which is what a
JSON `null` decodes to. -/
structure Src where
  targets : GoMap Str (Option TargetSrc)
  tasks : GoMap Str (Option TaskSrc)

/-- types/types.go:35-40 `type Task struct`. -/
structure Task where
  target : Str
  after : List Str
  message : Str
  config : Config
deriving DecidableEq

/-- types/types.go:8-11 `type Runbook struct`. -/
structure Runbook where
  targets : GoMap Str Target
  tasks : GoMap Str Task

/-- The result of a Go function that can return an error or panic. -/
inductive Res (α : Type) where
  | ok (a : α)
  | error (e : Err)
  /-- nil pointer dereference -/
  | panic

/-- parser.go:84-103: the body of the loop of `loadTargets`. -/
def loadTarget (dec : Decoder) (basedir : Str) : Option TargetSrc → Res Target
  | none => .panic
  | some w =>
    match newTarget basedir w.class_ with
    | none => .error .invalidTargetClass
    | some t0 =>
      match (if w.config.length > 0 then dec.target w.config t0 else .ok t0) with
      | .error m => .error (.json m)
      | .ok t =>
        match t.analyze with
        | some e => .error e
        | none => .ok t

/-- parser.go:83-106 `loadTargets`: the remaining entries and the targets loaded so far. -/
def loadTargets (dec : Decoder) (basedir : Str) :
    List (Str × Option TargetSrc) → GoMap Str Target → Res (GoMap Str Target)
  | [], m => .ok m
  | (id, w) :: rest, m =>
    match loadTarget dec basedir w with
    | .panic => .panic
    | .error e => .error e
    | .ok t => loadTargets dec basedir rest (m.set id t)

/-- parser.go:110-115: the target id and task class of `task.Target`. -/
def splitTarget (s : Str) : Str × Str :=
  match Sh.indexByte 47 s with
  | some i => (s.take i, s.drop (i + 1))
  | none => (s, [])

/-- parser.go:109-145: the body of the loop of `loadTasks`. -/
def loadTask (dec : Decoder) (targets : GoMap Str Target) : Option TaskSrc → Res Task
  | none => .panic
  | some w =>
    let p := splitTarget w.target
    match targets.get? p.1 with
    | none => .error .invalidTarget
    | some t =>
      match t.newTaskConfig p.2 with
      | .error e => .error e
      | .ok c0 =>
        match (if w.config.length > 0 then dec.config w.config c0 else .ok c0) with
        | .error m => .error (.json m)
        | .ok c1 =>
          match c1.check with
          | .error e => .error e
          | .ok c => .ok { target := p.1, after := w.after, message := w.message, config := c }

/-- parser.go:108-148 `loadTasks`. -/
def loadTasks (dec : Decoder) (targets : GoMap Str Target) :
    List (Str × Option TaskSrc) → GoMap Str Task → Res (GoMap Str Task)
  | [], m => .ok m
  | (id, w) :: rest, m =>
    match loadTask dec targets w with
    | .panic => .panic
    | .error e => .error e
    | .ok t => loadTasks dec targets rest (m.set id t)

/-- parser.go:68-80: `Parse` after the decode. -/
def parse (dec : Decoder) (basedir : Str) (src : Src) : Res Runbook :=
  match loadTargets dec basedir src.targets [] with
  | .panic => .panic
  | .error e => .error e
  | .ok targets =>
    match loadTasks dec targets src.tasks [] with
    | .panic => .panic
    | .error e => .error e
    | .ok tasks => .ok { targets := targets, tasks := tasks }

end Verif.Book
