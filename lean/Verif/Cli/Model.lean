import Verif.Cli.Kingpin
import Verif.Main.Model

/-!
# Model of `/repo/internal/cli`: the flags, arguments and commands, and what they are stored in
-/

namespace Verif.Cli
open Verif Main Cmd

/-- cli.go:21-23 `command`: which of the commands `p.cmd` is. -/
inductive Name where
  | ping | inspect | list | dot | eval | run | version
deriving DecidableEq, Repr

/-- What the flags and arguments are stored in: `commands.Base.Debug` (register.go:22, 28), the fields of
`ArgParser` (cli.go:13-21), and the structs of the commands. -/
structure Vars where
  debug : Option Str := none
  brevity : Nat := 0
  verbosity : Nat := 0
  ping : Server := {}
  inspect : InspectCmd := {}
  list : Str := []
  dot : DotCmd := { file := [] }
  eval : EvalCmd := { file := [], color := [] }
  run : Str := []
  long : Bool := false
  cmd : Option Name := none

/-- ping.go:10-17, inspect.go:11-18: the flags both have; `on` is the struct they are for. -/
def serverFlags (on : (Server → Server) → Vars → Vars) : List (Flag Vars) :=
  [{ name := b!"host", short := some 104, var := .string fun s => on fun c => { c with host := s } },
   { name := b!"port", short := some 112, var := .uint16 fun n => on fun c => { c with port := n } },
   { name := b!"dbname", short := some 100, var := .string fun s => on fun c => { c with dbName := s } },
   { name := b!"username", short := some 85, var := .string fun s => on fun c => { c with username := s } },
   { name := b!"sslmode",
     var := .enum [b!"disable", b!"allow", b!"prefer", b!"require", b!"verify-full"]
       fun s => on fun c => { c with sslMode := s } }]

/-- cli.go:51-57 `addCommand` and cli.go:63-70 `addSubCommand`. -/
def addCommand (cmd : Name) (names : List Str) (flags : List (Flag Vars)) (args : List (Arg Vars) := [])
    (isDefault : Bool := false) : Cli.Cmd Vars :=
  .mk names flags args [] isDefault fun v => { v with cmd := some cmd }

/-- ping.go:7-18 `registerPing`. -/
def pingCmd : Cli.Cmd Vars :=
  addCommand .ping [b!"ping"] (serverFlags fun f v => { v with ping := f v.ping })

/-- inspect.go:7-28 `registerInspect`. -/
def inspectCmd : Cli.Cmd Vars :=
  addCommand .inspect [b!"inspect"]
    (serverFlags (fun f v => { v with inspect := { v.inspect with server := f v.inspect.server } }) ++
    [{ name := b!"output", short := some 111,
       var := .string fun s v => { v with inspect := { v.inspect with output := s } } },
     { name := b!"sort-columns", var := .bool fun b v =>
         { v with inspect := { v.inspect with sort := { v.inspect.sort with sortColumns := b } } } },
     { name := b!"sort-check-constraints", var := .bool fun b v =>
         { v with inspect := { v.inspect with sort := { v.inspect.sort with sortChecks := b } } } },
     { name := b!"sort-indexes", var := .bool fun b v =>
         { v with inspect := { v.inspect with sort := { v.inspect.sort with sortIndexes := b } } } }])

/-- runbook.go:15-19. -/
def listCmd : Cli.Cmd Vars :=
  addCommand .list [b!"list", b!"ls"] []
    [{ name := b!"FILE", var := .existingFile fun s v => { v with list := s } }]

/-- runbook.go:22-34. -/
def dotCmd : Cli.Cmd Vars :=
  addCommand .dot [b!"dot"]
    [{ name := b!"output", short := some 111,
       var := .string fun s v => { v with dot := { v.dot with output := s } } },
     { name := b!"", short := some 79,
       var := .bool fun b v => { v with dot := { v.dot with autoOut := b } } },
     { name := b!"splines", var := .enum [b!"curved", b!"line", b!"ortho"]
         fun s v => { v with dot := { v.dot with splines := s } } }]
    [{ name := b!"FILE", var := .existingFile fun s v => { v with dot := { v.dot with file := s } } }]

/-- runbook.go:37-46. -/
def evalCmd : Cli.Cmd Vars :=
  addCommand .eval [b!"eval"]
    [{ name := b!"color", short := some 99, default := some b!"auto",
       var := .enum [b!"auto", b!"true", b!"false"]
         fun s v => { v with eval := { v.eval with color := s } } },
     { name := b!"output", short := some 111,
       var := .string fun s v => { v with eval := { v.eval with output := s } } }]
    [{ name := b!"FILE", var := .existingFile fun s v => { v with eval := { v.eval with file := s } } }]

/-- runbook.go:49-53. -/
def runCmd : Cli.Cmd Vars :=
  addCommand .run [b!"run"] []
    [{ name := b!"FILE", var := .existingFile fun s v => { v with run := s } }] (isDefault := true)

/-- runbook.go:11-66 `registerRunbook`, with cli.go:59-61 `addParent`. -/
def runbookCmd : Cli.Cmd Vars :=
  .mk [b!"runbook"] [] [] [listCmd, dotCmd, evalCmd, runCmd] false id

/-- version.go:11-22 `registerVersion`. -/
def versionCmd : Cli.Cmd Vars :=
  addCommand .version [b!"version"]
    [{ name := b!"long", short := some 108, var := .bool fun b v => { v with long := b } }]

/-- register.go:27-32. -/
def globalFlags : List (Flag Vars) :=
  [{ name := b!"debug", var := .openFile fun s v => { v with debug := some s } },
   { name := b!"quiet", short := some 113, var := .counter fun v => { v with brevity := v.brevity + 1 } },
   { name := b!"verbose", short := some 118,
     var := .counter fun v => { v with verbosity := v.verbosity + 1 } }]

/-- register.go:12-38 `RegisterCommands`. -/
def app : App Vars where
  flags := globalFlags
  cmds := [pingCmd, inspectCmd, runbookCmd, versionCmd]

/-- The commands there are: those of `Main.Command`, and `runbook run`. -/
inductive Request where
  | command (c : Main.Command)
  | run (file : Str)

/-- What `Parse` has found out: the debug log, the verbosity, and the command. -/
structure Parsed where
  debug : Option Str
  verbosity : Int
  request : Request

/-- cli.go:29-48 `Parse`; `build` is the version the program was built as. -/
def parse (k : Checks) (build : Str) (args : List Str) : Res Parsed :=
  match app.parse k args {} with
  | .error => .error
  | .help => .help
  | .file => .file
  | .ok v =>
    let r (c : Request) : Res Parsed := .ok ⟨v.debug, 1 + v.verbosity - v.brevity, c⟩
    match v.cmd with
    | none => .error
    | some .ping => r (.command (.ping v.ping))
    | some .inspect => r (.command (.inspect v.inspect))
    | some .list => r (.command (.list v.list))
    | some .dot => r (.command (.dot v.dot))
    | some .eval => r (.command (.eval v.eval))
    | some .run => r (.run v.run)
    | some .version => r (.command (.version build v.long))

/-- main.go:12-30: `pgutil` with these arguments, for the commands of `Main.Command`. Left out (`none`):
help, `@FILE` and `runbook run` (see `Main.RunEnds`). The debug log and log messages are left out too
(see `Cmd.runCli`). -/
def pgutil {F N : Type} (env : Env F N) (k : Checks) (build message : Str) (args : List Str) (w : World) :
    Option (World × Nat) :=
  match parse k build args with
  | .ok ⟨_, _, .command c⟩ => some (main env message (some c) w)
  | .error => some (main env message none w)
  | .ok ⟨_, _, .run _⟩ | .help | .file => none

end Verif.Cli
