import Verif.Base.Str

/-!
# Model of `/repo/internal/logger/logger.go` and of `Parse` in `/repo/internal/cli/cli.go`

zap is modelled by its contract: a core writes an entry to its sink iff the entry's level is at least
the core's, a tee passes entries to both its cores (`zapcore.NewCore`, `zapcore.NewTee`). How an entry
is turned into text is a parameter, `render`.
-/

namespace Verif.Cmd
open Verif

/-- The levels of the methods of `sys.Logger` (sys.go:20-42). -/
inductive Level where
  | debug
  | info
  | warn
  | error
deriving DecidableEq, Repr

/-- `zapcore.Level`. -/
def Level.toInt : Level → Int
  | .debug => -1
  | .info => 0
  | .warn => 1
  | .error => 2

/-- logger.go:28-38: the level of the default log. -/
def levelOf (verbosity : Int) : Level :=
  if verbosity ≥ 3 then .debug
  else if verbosity = 2 then .info
  else if verbosity = 1 then .warn
  else .error

/-- logger.go:55-79: the level of the default core, and whether there is a debug core, which has level
debug. -/
structure Logger where
  level : Level
  debugLog : Bool
deriving DecidableEq

/-- What has been written: standard output, shared by the default log and the command (cli.go:39, 43),
and the debug log. -/
structure Sinks where
  stdout : Str := []
  debug : Str := []
deriving DecidableEq

/-- `log.Debugw`, `log.Infof` etc. -/
def Logger.log (render : Level → Str → Str) (l : Logger) (lvl : Level) (msg : Str) (s : Sinks) :
    Sinks :=
  let s := if l.level.toInt ≤ lvl.toInt then { s with stdout := s.stdout ++ render lvl msg } else s
  if l.debugLog && decide (Level.debug.toInt ≤ lvl.toInt) then
    { s with debug := s.debug ++ render lvl msg }
  else s

/-- logger.go:27-86 `New`. The debug log is given by its name; it is an `*os.File` (base.go:13), hence
the message on logger.go:82. -/
def newLogger (render : Level → Str → Str) (verbosity : Int) (debugLog : Option Str) (s : Sinks) :
    Logger × Sinks :=
  let l : Logger := { level := levelOf verbosity, debugLog := debugLog.isSome }
  match debugLog with
  | none => (l, s)
  | some name => (l, l.log render .info (b!"logging to: " ++ name) s)

/-- What a command does to its `Base`: log a message, or print to `Stdout`. -/
inductive Act where
  | log (lvl : Level) (msg : Str)
  | print (text : Str)
deriving DecidableEq

/-- A command's actions, one after the other. -/
def runActs (render : Level → Str → Str) (l : Logger) : List Act → Sinks → Sinks
  | [], s => s
  | .log lvl msg :: rest, s => runActs render l rest (l.log render lvl msg s)
  | .print text :: rest, s => runActs render l rest { s with stdout := s.stdout ++ text }

/-- cli.go:36-47: the command function `Parse` returns; `verbosity` and `brevity` count the flags
(register.go:29-32), `cmd` is what the command's `Run` does. -/
def runCli (render : Level → Str → Str) (version : Str) (verbosity brevity : Nat)
    (debugLog : Option Str) (cmd : List Act) : Sinks :=
  let v : Int := 1 + verbosity - brevity
  let p := newLogger render v debugLog {}
  runActs render p.1 cmd (p.1.log render .info (b!"pgutil version=" ++ version) p.2)

end Verif.Cmd
