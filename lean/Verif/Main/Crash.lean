import Mathlib.Logic.Relation
import Verif.Main.Model

/-!
# Small steps of `/repo/main.go` with the commands of `/repo/internal/commands` (all but `runbook run`)

`Verif.Main.Model` says what a command has done at its end.  Here it goes step by step, so that one can say
what there is if the program is killed between two steps.  The operating system writes byte by byte, and may
refuse to go on at any byte.  Connecting to the server and the queries are one step: they change no file.
-/

namespace Verif.Main
open Verif Cmd

/-- How far the program is. -/
inductive Pc where
  | start
  /-- inspect.go:48-56: the inspected database is about to be written, as this text -/
  | inspected (text : Str)
  /-- runbook_dot.go:37, runbook_eval.go:42: the output is open, the runbook is about to be read -/
  | opened (dest : Writer)
  /-- in `w.Write`, with this still to be written; `strict`: the error is looked at -/
  | writing (dest : Writer) (rest : Str) (strict : Bool)
  /-- `Run` has returned an error -/
  | failing
  /-- main.go:25-28: in `fmt.Println(err)` -/
  | printing (rest : Str)
  /-- the exit status -/
  | ended (code : Nat)

/-- Text arrives at the writer. -/
def put (dest : Writer) (text : Str) (w : World) : World :=
  match dest with
  | .stdout => { w with stdout := w.stdout ++ text }
  | .file name => { w with files := setFile w.files name (contents w.files name ++ text) }

/-- What is done with an open output: runbook_dot.go:30-36, runbook_eval.go:25-31. -/
def opening {F N : Type} (env : Env F N) (output : Str) (w : World) (go : Writer → Pc) : World × Pc :=
  match openOutput env.os output w with
  | none => (w, .failing)
  | some (dest, w) => (w, go dest)

/-- The first step: ping.go:19-38, inspect.go:24-46, runbook_list.go:14-39, runbook_dot.go:19-36,
runbook_eval.go:19-31, version.go:20-29.  As in `runbookList` and `version` all the lines are written at once. -/
def begin {F N : Type} (env : Env F N) (w : World) : Command → World × Pc
  | .ping s =>
    match (Pg.new env.libpq env.accepts s.options).2 with
    | .err _ => (w, .failing)
    | .nilConn => (w, .ended 2)
    | .conn i =>
      match env.version i with
      | .error _ => (w, .failing)
      | .ok v => (w, .writing .stdout (v ++ b!"\n") false)
  | .inspect c =>
    match (Pg.new env.libpq env.accepts c.server.options).2 with
    | .err _ => (w, .failing)
    | .nilConn => (w, .ended 2)
    | .conn i =>
      match Pg.inspect env.parseFloat env.sort (env.serve i) c.sort with
      | .error _ => (w, .failing)
      | .ok d => (w, .inspected (env.print (Hcl.write env.hcl (Hcl.ofInspect d))))
  | .list file =>
    match env.libs.parse w.files file with
    | .error _ => (w, .failing)
    | .ok book => (w, .writing .stdout (runList book) false)
  | .dot c => opening env c.target w .opened
  | .eval c => opening env (if c.output ≠ [] then c.output else b!"-") w .opened
  | .version build long =>
    (w, .writing .stdout (b!"pgutil " ++ build ++ b!"\n" ++
      match long, env.deps with
      | true, some deps => b!"\n" ++ deps.flatMap depLine
      | _, _ => []) false)

/-- runbook.go:49-80 `Dot`, runbook.go:86-111 `Eval` up to `w.Write`.  The other commands do not come here. -/
def load {F N : Type} (env : Env F N) (dest : Writer) (w : World) : Command → Pc
  | .dot c =>
    match env.libs.parse w.files c.file with
    | .error _ => .failing
    | .ok book => .writing dest (env.libs.graph book c.splines) false
  | .eval c =>
    match env.libs.eval w.files c.file (c.useColor env.terminal dest) with
    | .error _ => .failing
    | .ok text => .writing dest text true
  | _ => .failing

/-- inspect.go:48-56: opening the output comes after the inspection. -/
def store {F N : Type} (env : Env F N) (text : Str) (w : World) : Command → World × Pc
  | .inspect c => opening env (if c.output = [] then b!"-" else c.output) w (.writing · text true)
  | _ => (w, .failing)

/-- One step of the program, which runs the command `c`; `message` is the text of the error if there is one. -/
inductive Step {F N : Type} (env : Env F N) (message : Str) (c : Command) : World × Pc → World × Pc → Prop where
  | begin {w : World} : Step env message c (w, .start) (begin env w c)
  | store {w : World} {text : Str} : Step env message c (w, .inspected text) (store env text w c)
  | load {w : World} {dest : Writer} : Step env message c (w, .opened dest) (w, load env dest w c)
  /-- one more byte is written -/
  | byte {w : World} {dest : Writer} {b : UInt8} {rest : Str} {strict : Bool} :
    Step env message c (w, .writing dest (b :: rest) strict) (put dest [b] w, .writing dest rest strict)
  | written {w : World} {dest : Writer} {strict : Bool} : Step env message c (w, .writing dest [] strict) (w, .ended 0)
  /-- `w.Write` returns an error; ping.go:36, runbook_list.go:33-37, runbook.go:81 and version.go:22 do not look at it -/
  | broken {w : World} {dest : Writer} {rest : Str} {strict : Bool} :
    Step env message c (w, .writing dest rest strict) (w, if strict then .failing else .ended 0)
  /-- main.go:25-28 -/
  | report {w : World} : Step env message c (w, .failing) (w, .printing (message ++ b!"\n"))
  | char {w : World} {b : UInt8} {rest : Str} :
    Step env message c (w, .printing (b :: rest)) (put .stdout [b] w, .printing rest)
  /-- with or without an error of `fmt.Println`, at which main.go:26 does not look -/
  | exit {w : World} {rest : Str} : Step env message c (w, .printing rest) (w, .ended 1)

/-- What there may be if the program is killed at some point of its run, or after it. -/
def Found {F N : Type} (env : Env F N) (message : Str) (c : Command) (w w' : World) : Prop :=
  ∃ pc, Relation.ReflTransGen (Step env message c) (w, .start) (w', pc)

end Verif.Main
