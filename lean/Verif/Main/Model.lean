import Verif.Hcl.Text
import Verif.Pg.Connect
import Verif.Pg.Inspect
import Verif.Hcl.Ddl
import Verif.Cmd.Output
import Verif.Cmd.List

/-!
# Model of `/repo/main.go` with `Run` of `ping`, `inspect`, `version` and `runbook list`, `dot`, `eval`
(`/repo/internal/commands`)

The command line has been parsed: `kingpin` is not modelled, nor is what it prints and how it exits for
`--help`.  Log messages are left out (see `Verif.Cmd.Log`).  `runbook run` is in `Verif.Main.Exit`.
-/

namespace Verif.Main
open Verif Cmd

/-- What the program finds outside and in its libraries. -/
structure Env (F N : Type) where
  /-- `pgx.ParseEnvLibpq` -/
  libpq : Except Unit Pg.ConnConfig
  /-- the outcome of every attempt to connect -/
  accepts : Nat → Bool
  /-- the answers over the connection an attempt has opened -/
  serve : Nat → Pg.Catalog
  /-- the answer to `SELECT VERSION()` over such a connection -/
  version : Nat → Except Unit Str
  /-- `strconv.ParseFloat` -/
  parseFloat : Str → F × Option Ddl.NumErr
  /-- `sort.Slice` -/
  sort : Pg.Sorter
  hcl : Hcl.Lib F N
  /-- `unicode.IsPrint` -/
  isPrint : Nat → Bool
  /-- `big.Float.Text`: the text of a number -/
  showN : N → Str
  os : Os
  libs : Libs
  /-- whether a writer is a terminal -/
  terminal : Writer → Bool
  /-- `debug.ReadBuildInfo`: path and version of the modules the program was built from -/
  deps : Option (List (Str × Str))

/-- ddl.go:52-57 `Write`: the text of a document. -/
def Env.print {F N : Type} (env : Env F N) (doc : List (Hcl.Item N)) : Str := Hcl.print env.isPrint env.showN doc

/-- What goes over the network. -/
inductive Net where
  | event (e : Pg.Event)
  | close
deriving DecidableEq

/-- How `Run` of a command ends. -/
inductive End where
  | ok
  | failed
  | panics
deriving DecidableEq

/-- What a command has done. -/
structure Out where
  world : World
  net : List Net := []
  result : End

/-- ping.go:10-16, inspect.go:10-15: the flags that say where to connect. -/
structure Server where
  host : Str := []
  port : UInt16 := 0
  sslMode : Str := []
  dbName : Str := []
  username : Str := []
deriving DecidableEq, Repr

/-- ping.go:20-28, inspect.go:25-33. -/
def Server.options (s : Server) : Pg.Options :=
  { host := s.host, port := s.port, sslMode := s.sslMode, username := s.username, database := s.dbName }

/-- `pg.New`, then `use` with the connection, which is closed afterwards: ping.go:19-32, inspect.go:24-37.
A `Conn` without a connection is dereferenced by the first query. -/
def withConn {F N : Type} (env : Env F N) (s : Server) (w : World) (use : Nat → World × End) : Out :=
  let r := Pg.new env.libpq env.accepts s.options
  match r.2 with
  | .err _ => ⟨w, r.1.map .event, .failed⟩
  | .nilConn => ⟨w, r.1.map .event, .panics⟩
  | .conn i => ⟨(use i).1, r.1.map .event ++ [.close], (use i).2⟩

/-- ping.go:19-39 `Run`. The result of `fmt.Fprintln` is not looked at. -/
def ping {F N : Type} (env : Env F N) (s : Server) (w : World) : Out :=
  withConn env s w fun i =>
    match env.version i with
    | .error _ => (w, .failed)
    | .ok v => ((write env.os .stdout (v ++ b!"\n") w).1, .ok)

/-- inspect.go:10-21 `type InspectCmd struct`. -/
structure InspectCmd where
  server : Server := {}
  output : Str := []
  sort : Pg.InspectOptions := {}

/-- The result of a command that is not about to panic. -/
def End.ofExit : Exit → End
  | .success => .ok
  | .failure => .failed

/-- inspect.go:24-58 `Run`. -/
def InspectCmd.run {F N : Type} (env : Env F N) (c : InspectCmd) (w : World) : Out :=
  withConn env c.server w fun i =>
    let db : Except Unit Str :=
      match Pg.inspect env.parseFloat env.sort (env.serve i) c.sort with
      | .error _ => .error ()
      | .ok d => .ok (env.print (Hcl.write env.hcl (Hcl.ofInspect d)))
    let r := runInspect env.os db c.output w
    (r.1, .ofExit r.2)

/-- runbook_list.go:14-39 `Run`. Here all is written at once; the code writes line by line. The results
of the writes are not looked at. -/
def runbookList {F N : Type} (env : Env F N) (file : Str) (w : World) : Out :=
  match env.libs.parse w.files file with
  | .error _ => ⟨w, [], .failed⟩
  | .ok book => ⟨(write env.os .stdout (runList book) w).1, [], .ok⟩

/-- version.go:24-26: the format `"%-40s %-35s\n"`. -/
def depLine (d : Str × Str) : Str := padRight 40 d.1 ++ b!" " ++ padRight 35 d.2 ++ b!"\n"

/-- version.go:20-29 `Run`. Here all is written at once. Lines 23 and 25 write to `os.Stdout` instead of
`base.Stdout`, which is the same in main.go. -/
def version {F N : Type} (env : Env F N) (build : Str) (long : Bool) (w : World) : Out :=
  let text := b!"pgutil " ++ build ++ b!"\n" ++
    match long, env.deps with
    | true, some deps => b!"\n" ++ deps.flatMap depLine
    | _, _ => []
  ⟨(write env.os .stdout text w).1, [], .ok⟩

/-- The commands (register.go:34-37), without `runbook run`. -/
inductive Command where
  | ping (server : Server)
  | inspect (c : InspectCmd)
  | list (file : Str)
  | dot (c : DotCmd)
  | eval (c : EvalCmd)
  | version (build : Str) (long : Bool)

/-- cli.go:46 -/
def Command.run {F N : Type} (env : Env F N) (w : World) : Command → Out
  | .ping s => Main.ping env s w
  | .inspect c => c.run env w
  | .list file => runbookList env file w
  | .dot c => let r := c.run env.os env.libs w; ⟨r.1, [], .ofExit r.2⟩
  | .eval c => let r := c.run env.os env.libs env.terminal w; ⟨r.1, [], .ofExit r.2⟩
  | .version build long => Main.version env build long w

/-- main.go:19-29: `fmt.Println(err)` and the exit status. `message` is the text of the error, if there
is one. A Go program that panics has status 2. -/
def finish (os : Os) (message : Str) (r : End) (w : World) : World × Nat :=
  match r with
  | .ok => (w, 0)
  | .failed => ((write os .stdout (message ++ b!"\n") w).1, 1)
  | .panics => (w, 2)

/-- main.go:12-30 `main`; `parsed` is the outcome of `parser.Parse`. -/
def main {F N : Type} (env : Env F N) (message : Str) (parsed : Option Command) (w : World) :
    World × Nat :=
  match parsed with
  | none => finish env.os message .failed w
  | some c =>
    let o := c.run env w
    finish env.os message o.result o.world

end Verif.Main
