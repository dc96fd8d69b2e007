import Verif.Cli.Model

/-!
# Command lines in ordinary form, and what they ask for
-/

namespace Verif.Cli.Spec
open Verif Main Cmd

/-- What can be asked for on the command line. -/
inductive Opt where
  | debug (file : Str)
  | quiet
  | verbose
  | host (v : Str)
  | port (v : Str)
  | dbname (v : Str)
  | username (v : Str)
  | sslmode (v : Str)
  | output (v : Str)
  | sortColumns
  | sortChecks
  | sortIndexes
  | autoOut
  | splines (v : Str)
  | color (v : Str)
  | long
  /-- the run book -/
  | file (v : Str)
deriving DecidableEq

/-- The long name. -/
def Opt.name : Opt → Option Str
  | .debug _ => some b!"debug"
  | .quiet => some b!"quiet"
  | .verbose => some b!"verbose"
  | .host _ => some b!"host"
  | .port _ => some b!"port"
  | .dbname _ => some b!"dbname"
  | .username _ => some b!"username"
  | .sslmode _ => some b!"sslmode"
  | .output _ => some b!"output"
  | .sortColumns => some b!"sort-columns"
  | .sortChecks => some b!"sort-check-constraints"
  | .sortIndexes => some b!"sort-indexes"
  | .splines _ => some b!"splines"
  | .color _ => some b!"color"
  | .long => some b!"long"
  | .autoOut | .file _ => none

/-- The letter. -/
def Opt.letter : Opt → Option UInt8
  | .quiet => some 113 -- q
  | .verbose => some 118 -- v
  | .host _ => some 104 -- h
  | .port _ => some 112 -- p
  | .dbname _ => some 100 -- d
  | .username _ => some 85 -- U
  | .output _ => some 111 -- o
  | .autoOut => some 79 -- O
  | .color _ => some 99 -- c
  | .long => some 108 -- l
  | _ => none

/-- The value that is given to it. -/
def Opt.value : Opt → Option Str
  | .debug v | .host v | .port v | .dbname v | .username v | .sslmode v | .output v | .splines v
  | .color v | .file v => some v
  | _ => none

/-- A word that can stand alone: it begins neither with `-` nor with `@`. -/
def Plain (v : Str) : Prop := ∀ rest, v ≠ 45 :: rest ∧ v ≠ 64 :: rest

/-- The ways to write an option: `--name value`, `--name=value`, `-x value`, `-xvalue`, or `--name` and
`-x` for one without a value; a file is just named. -/
inductive Written : Opt → List Str → Prop
  | long {o : Opt} {n v : Str} : o.name = some n → o.value = some v → Plain v →
      Written o [b!"--" ++ n, v]
  | longEq {o : Opt} {n v : Str} : o.name = some n → o.value = some v →
      Written o [b!"--" ++ n ++ b!"=" ++ v]
  | short {o : Opt} {x : UInt8} {v : Str} : o.letter = some x → o.value = some v → Plain v →
      Written o [[45, x], v]
  | joined {o : Opt} {x : UInt8} {v : Str} : o.letter = some x → o.value = some v → v ≠ [] →
      Written o [45 :: x :: v]
  | switch {o : Opt} {n : Str} : o.name = some n → o.value = none → Written o [b!"--" ++ n]
  | letter {o : Opt} {x : UInt8} : o.letter = some x → o.value = none → Written o [[45, x]]
  | file {v : Str} : Plain v → Written (.file v) [v]

/-- A sequence of options. Letters can be put together: `-x -y` is also `-xy`. -/
inductive Words : List Opt → List Str → Prop
  | nil : Words [] []
  | cons {o : Opt} {os : List Opt} {w rest : List Str} : Written o w → Words os rest →
      Words (o :: os) (w ++ rest)
  | together {o : Opt} {os : List Opt} {x y : UInt8} {w : Str} {rest : List Str} :
      o.letter = some x → o.value = none → y ≠ 45 → Words os ((45 :: y :: w) :: rest) →
      Words (o :: os) ((45 :: x :: y :: w) :: rest)

/-- The options of every command. -/
def Global : Opt → Prop
  | .debug _ | .quiet | .verbose => True
  | _ => False

/-- The options of each command. -/
def Takes : Name → Opt → Prop
  | _, .debug _ | _, .quiet | _, .verbose => True
  | .ping, .host _ | .ping, .port _ | .ping, .dbname _ | .ping, .username _ | .ping, .sslmode _ => True
  | .inspect, .host _ | .inspect, .port _ | .inspect, .dbname _ | .inspect, .username _
  | .inspect, .sslmode _ | .inspect, .output _ | .inspect, .sortColumns | .inspect, .sortChecks
  | .inspect, .sortIndexes => True
  | .list, .file _ | .run, .file _ => True
  | .dot, .file _ | .dot, .output _ | .dot, .autoOut | .dot, .splines _ => True
  | .eval, .file _ | .eval, .output _ | .eval, .color _ => True
  | .version, .long => True
  | _, _ => False

/-- The commands that are one word. -/
def topWords : List (Name × Str) := [(.ping, b!"ping"), (.inspect, b!"inspect"), (.version, b!"version")]

/-- The words that follow `runbook`. -/
def subWords : List (Name × Str) :=
  [(.list, b!"list"), (.list, b!"ls"), (.dot, b!"dot"), (.eval, b!"eval"), (.run, b!"run")]

/-- A command line in ordinary form for this command and these options: options of every command may
come first, those of the command after its name. `run` may be left out. -/
inductive Line : Name → List Opt → List Str → Prop
  | top {c : Name} {word : Str} {pre post : List Opt} {a b : List Str} : (c, word) ∈ topWords →
      (∀ o ∈ pre, Global o) → (∀ o ∈ post, Takes c o) → Words pre a → Words post b →
      Line c (pre ++ post) (a ++ [word] ++ b)
  | sub {c : Name} {word : Str} {pre mid post : List Opt} {a b d : List Str} : (c, word) ∈ subWords →
      (∀ o ∈ pre, Global o) → (∀ o ∈ mid, Global o) → (∀ o ∈ post, Takes c o) →
      Words pre a → Words mid b → Words post d →
      Line c (pre ++ mid ++ post) (a ++ [b!"runbook"] ++ b ++ [word] ++ d)
  | run {pre post : List Opt} {a b : List Str} : (∀ o ∈ pre, Global o) → (∀ o ∈ post, Takes .run o) →
      (∀ v, .file v ∈ post → ∀ c, (c, v) ∉ subWords) → Words pre a → Words post b →
      Line .run (pre ++ post) (a ++ [b!"runbook"] ++ b)

/-- The value of an option makes sense. -/
def Acceptable (k : Checks) : Opt → Prop
  | .debug f => k.opens f = true
  | .port v => ∃ n, k.uint16 v = some n
  | .sslmode v => v ∈ [b!"disable", b!"allow", b!"prefer", b!"require", b!"verify-full"]
  | .splines v => v ∈ [b!"curved", b!"line", b!"ortho"]
  | .color v => v ∈ [b!"auto", b!"true", b!"false"]
  | .file v => k.isFile v = true
  | _ => True

/-- Two options ask for the same thing. -/
def SameThing : Opt → Opt → Prop
  | .debug _, .debug _ | .host _, .host _ | .port _, .port _ | .dbname _, .dbname _
  | .username _, .username _ | .sslmode _, .sslmode _ | .output _, .output _
  | .sortColumns, .sortColumns | .sortChecks, .sortChecks | .sortIndexes, .sortIndexes
  | .autoOut, .autoOut | .splines _, .splines _ | .color _, .color _ | .long, .long
  | .file _, .file _ => True
  | _, _ => False

/-- The options make sense together: each has an acceptable value, nothing is asked for twice (other
than to be more quiet or more verbose), and the commands on run books have one. -/
structure Sensible (k : Checks) (c : Name) (os : List Opt) : Prop where
  values : ∀ o ∈ os, Acceptable k o
  once : os.Pairwise fun a b => ¬ SameThing a b
  file : Takes c (.file []) → ∃ v, .file v ∈ os

/-- The value of an option of one kind. -/
def Opt.debug? : Opt → Option Str
  | .debug v => some v
  | _ => none

def Opt.host? : Opt → Option Str
  | .host v => some v
  | _ => none

def Opt.dbname? : Opt → Option Str
  | .dbname v => some v
  | _ => none

def Opt.username? : Opt → Option Str
  | .username v => some v
  | _ => none

def Opt.sslmode? : Opt → Option Str
  | .sslmode v => some v
  | _ => none

def Opt.output? : Opt → Option Str
  | .output v => some v
  | _ => none

def Opt.splines? : Opt → Option Str
  | .splines v => some v
  | _ => none

def Opt.color? : Opt → Option Str
  | .color v => some v
  | _ => none

def Opt.file? : Opt → Option Str
  | .file v => some v
  | _ => none

def Opt.port? (k : Checks) : Opt → Option UInt16
  | .port v => k.uint16 v
  | _ => none

/-- The value asked for, if there is one. -/
def asked {β : Type} (get : Opt → Option β) (os : List Opt) : Option β := (os.filterMap get).getLast?

/-- The flags that say where to connect. -/
def server (k : Checks) (os : List Opt) : Server where
  host := (asked Opt.host? os).getD []
  port := (asked (Opt.port? k) os).getD 0
  dbName := (asked Opt.dbname? os).getD []
  username := (asked Opt.username? os).getD []
  sslMode := (asked Opt.sslmode? os).getD []

/-- The run book. -/
def fileOf (os : List Opt) : Str := (asked Opt.file? os).getD []

/-- The name of the output. -/
def outputOf (os : List Opt) : Str := (asked Opt.output? os).getD []

/-- What the options ask a command for. -/
def request (k : Checks) (build : Str) (os : List Opt) : Name → Request
  | .ping => .command (.ping (server k os))
  | .inspect => .command (.inspect
      { server := server k os, output := outputOf os,
        sort := { sortColumns := decide (.sortColumns ∈ os), sortChecks := decide (.sortChecks ∈ os),
                  sortIndexes := decide (.sortIndexes ∈ os) } })
  | .list => .command (.list (fileOf os))
  | .dot => .command (.dot
      { file := fileOf os, output := outputOf os, autoOut := decide (.autoOut ∈ os),
        splines := (asked Opt.splines? os).getD [] })
  | .eval => .command (.eval
      { file := fileOf os, output := outputOf os,
        color := (asked Opt.color? os).getD b!"auto" })
  | .run => .run (fileOf os)
  | .version => .command (.version build (decide (.long ∈ os)))

/-- What a command line asks for. -/
def meaning (k : Checks) (build : Str) (c : Name) (os : List Opt) : Parsed where
  debug := asked Opt.debug? os
  verbosity := 1 + (os.count .verbose : Int) - (os.count .quiet : Int)
  request := request k build os c

/-- A word that begins like an option and is none of those: `-` alone, a letter that is not theirs (with
anything after it), or a name that is not theirs (and anything after `=`). Left out are names kingpin adds
to every program, such as `--help`, and names after `no-`, which take an option back. -/
inductive Unknown (options : Opt → Prop) : Str → Prop
  | dash : Unknown options b!"-"
  | letter {x : UInt8} {rest : Str} : x ≠ 45 → (∀ o, options o → o.letter ≠ some x) →
      Unknown options (45 :: x :: rest)
  | long {n : Str} : n ≠ [] → 61 ∉ n → (∀ o, options o → o.name ≠ some n) → n ∉ helpFlags →
      (∀ m, n ≠ b!"no-" ++ m) → Unknown options (b!"--" ++ n)
  | longEq {n v : Str} : n ≠ [] → 61 ∉ n → (∀ o, options o → o.name ≠ some n) → n ∉ helpFlags →
      (∀ m, n ≠ b!"no-" ++ m) → Unknown options (b!"--" ++ n ++ b!"=" ++ v)

/-- The words that name commands. -/
def commandWords : List Str := [b!"ping", b!"inspect", b!"runbook", b!"version"]

/-- Command lines that go wrong at some point: before it they are in ordinary form, after it there can be
anything. -/
inductive Wrong : List Str → Prop
  /-- there is no command -/
  | nothing {pre : List Opt} {a : List Str} : (∀ o ∈ pre, Global o) → Words pre a → Wrong a
  /-- the command is unknown -/
  | command {pre : List Opt} {a : List Str} {word : Str} {rest : List Str} : (∀ o ∈ pre, Global o) →
      Words pre a → Plain word → word ∉ commandWords → word ≠ b!"help" → Wrong (a ++ word :: rest)
  /-- an option before the command is not one of every command -/
  | early {pre : List Opt} {a : List Str} {word : Str} {rest : List Str} : (∀ o ∈ pre, Global o) →
      Words pre a → Unknown Global word → Wrong (a ++ word :: rest)
  /-- an option is not one of the command -/
  | option {c : Name} {os : List Opt} {args : List Str} {word : Str} {rest : List Str} :
      Line c os args → Unknown (Takes c) word → Wrong (args ++ word :: rest)
  /-- the command takes no file, but a word that could be one follows -/
  | surplus {c : Name} {os : List Opt} {args : List Str} {word : Str} {rest : List Str} :
      Line c os args → ¬ Takes c (.file []) → Plain word → Wrong (args ++ word :: rest)

end Verif.Cli.Spec
