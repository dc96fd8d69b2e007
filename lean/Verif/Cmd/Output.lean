import Verif.Book.Model

/-!
# Model of `Run` in `/repo/internal/commands/{runbook_dot,runbook_eval,inspect}.go` with `Dot` and `Eval`
of `/repo/internal/runbook/runbook.go` and `Write` of `/repo/internal/ddl/ddl.go`

The file system maps names to contents; links and different spellings of one name are not modelled.
What the libraries do is a parameter: reading and evaluating a runbook depends on the file system at
that time (jsonnet may import other files), a graph or a document has some text. An operation of the
operating system may fail, and a failing write may have written some of the text.
-/

namespace Verif.Cmd
open Verif

/-- File system and standard output. -/
structure World where
  files : Str → Option Str
  stdout : Str := []

/-- What the operating system does. -/
structure Os where
  /-- `os.OpenFile` fails for this name -/
  openFails : Str → Bool
  /-- what `Write` writes of a text, and whether it returns an error -/
  write : Str → Str × Bool

/-- A command's outcome; errors are not told apart. -/
inductive Exit where
  | success
  | failure
deriving DecidableEq, Repr

/-- An `io.Writer`: standard output or an open file. -/
inductive Writer where
  | stdout
  | file (name : Str)
deriving DecidableEq

/-- The file system after setting the contents of a file. -/
def setFile (files : Str → Option Str) (name contents : Str) : Str → Option Str :=
  fun n => if n = name then some contents else files n

/-- `os.OpenFile(name, os.O_CREATE|os.O_TRUNC|os.O_WRONLY, 0666)`: creates the file or empties it. -/
def openTrunc (os : Os) (name : Str) (w : World) : Option World :=
  if os.openFails name then none else some { w with files := setFile w.files name [] }

/-- The contents of an open file; one that has been removed counts as empty. -/
def contents (files : Str → Option Str) (name : Str) : Str :=
  match files name with
  | some c => c
  | none => []

/-- `w.Write(text)`: what has been written is appended; the error. -/
def write (os : Os) (dest : Writer) (text : Str) (w : World) : World × Bool :=
  match dest with
  | .stdout => ({ w with stdout := w.stdout ++ (os.write text).1 }, (os.write text).2)
  | .file name =>
    ({ w with files := setFile w.files name (contents w.files name ++ (os.write text).1) },
      (os.write text).2)

/-- runbook_dot.go:28-34, runbook_eval.go:25-31, inspect.go:49-55: standard output or the file. -/
def openOutput (os : Os) (output : Str) (w : World) : Option (Writer × World) :=
  if output ≠ b!"-" then
    match openTrunc os output w with
    | none => none
    | some w' => some (.file output, w')
  else some (.stdout, w)

/-- `filepath.Ext` on Unix, from the end: the bytes of `rev` (the name reversed) still to look at and
the suffix passed. -/
def extLoop : Str → Str → Str
  | [], _ => []
  | b :: rest, suffix =>
    if b = 47 then []
    else if b = 46 then b :: suffix
    else extLoop rest (b :: suffix)

/-- `filepath.Ext`. -/
def ext (name : Str) : Str := extLoop name.reverse []

/-- runbook_dot.go:11-16 `type RunBookDotCmd struct`. -/
structure DotCmd where
  file : Str
  output : Str := []
  autoOut : Bool := false
  splines : Str := []

/-- runbook_dot.go:20-28: the name of the output. -/
def DotCmd.target (c : DotCmd) : Str :=
  if c.output ≠ [] then c.output
  else if c.autoOut then c.file.take (c.file.length - (ext c.file).length) ++ b!".dot"
  else b!"-"

/-- The libraries: reading a runbook file (parser.go:35-80), its evaluation to a formatted document
(runbook.go:87-108; the flag is `color`), the text of the graph (runbook.go:58-80). -/
structure Libs where
  parse : (Str → Option Str) → Str → Except Unit Book.Runbook
  eval : (Str → Option Str) → Str → Bool → Except Unit Str
  graph : Book.Runbook → Str → Str

/-- runbook_dot.go:19-37 `Run` with runbook.go:49-83 `Dot`. The result of `w.Write` on runbook.go:81 is
not looked at. -/
def DotCmd.run (os : Os) (libs : Libs) (c : DotCmd) (w : World) : World × Exit :=
  match openOutput os c.target w with
  | none => (w, .failure)
  | some (dest, w) =>
    match libs.parse w.files c.file with
    | .error _ => (w, .failure)
    | .ok book => ((write os dest (libs.graph book c.splines) w).1, .success)

/-- runbook_eval.go:12-16 `type RunBookEvalCmd struct`. -/
structure EvalCmd where
  file : Str
  color : Str := b!"auto"
  output : Str := []

/-- runbook_eval.go:33-41; `terminal`: the writer is a terminal. -/
def EvalCmd.useColor (c : EvalCmd) (terminal : Writer → Bool) (dest : Writer) : Bool :=
  if c.color = b!"auto" then terminal dest
  else if c.color = b!"true" then true
  else false

/-- runbook_eval.go:19-43 `Run` with runbook.go:86-112 `Eval`. -/
def EvalCmd.run (os : Os) (libs : Libs) (terminal : Writer → Bool) (c : EvalCmd) (w : World) :
    World × Exit :=
  match openOutput os (if c.output ≠ [] then c.output else b!"-") w with
  | none => (w, .failure)
  | some (dest, w) =>
    match libs.eval w.files c.file (c.useColor terminal dest) with
    | .error _ => (w, .failure)
    | .ok text =>
      let p := write os dest text w
      (p.1, if p.2 then .failure else .success)

/-- inspect.go:24-58 `Run`: `db` is the outcome of connecting and inspecting, as the text of the database
(ddl.go:52-57). -/
def runInspect (os : Os) (db : Except Unit Str) (output : Str) (w : World) : World × Exit :=
  match db with
  | .error _ => (w, .failure)
  | .ok text =>
    match openOutput os (if output = [] then b!"-" else output) w with
    | none => (w, .failure)
    | some (dest, w) =>
      let p := write os dest text w
      (p.1, if p.2 then .failure else .success)

end Verif.Cmd
