import Verif.Base.Str

/-!
# A model of the library `gopkg.in/alecthomas/kingpin.v2` (v2.2.6)

The source of the library is not in the repository; this follows its `parser.go`, `flags.go` and `app.go`
from knowledge, so far as `/repo/internal/cli` uses them. Left out: what it prints, and `--help` and
`help`, whose outcome is `.help` as soon as they are met; arguments `@FILE`, which stand for the lines of
a file, whose outcome is `.file`. `α` is what flags and arguments are stored in.
-/

namespace Verif.Cli
open Verif

/-- The outcome of reading a command line. -/
inductive Res (β : Type) where
  | ok (b : β)
  | error
  | help
  | file

/-- Where the value of a flag or argument goes: `StringVar`, `Uint16Var`, `EnumVar`, `BoolVar`,
`CounterVar`, `OpenFileVar`, `ExistingFileVar`. -/
inductive Var (α : Type) where
  | string (set : Str → α → α)
  | uint16 (set : UInt16 → α → α)
  | enum (options : List Str) (set : Str → α → α)
  | bool (set : Bool → α → α)
  | counter (inc : α → α)
  | openFile (set : Str → α → α)
  | existingFile (set : Str → α → α)

/-- What values are checked against: `strconv.ParseUint(s, 0, 16)`, whether a file can be opened and
whether there is one (and it is not a directory). -/
structure Checks where
  uint16 : Str → Option UInt16
  opens : Str → Bool
  isFile : Str → Bool

/-- values.go: `Set`. `none` is an error. -/
def Var.set {α : Type} (k : Checks) : Var α → Str → α → Option α
  | .string set, s, a => some (set s a)
  | .uint16 set, s, a => (k.uint16 s).map fun n => set n a
  | .enum options set, s, a => if s ∈ options then some (set s a) else none
  | .bool set, s, a => if s = b!"true" then some (set true a) else if s = b!"false" then some (set false a) else none
  | .counter inc, _, a => some (inc a)
  | .openFile set, s, a => if k.opens s then some (set s a) else none
  | .existingFile set, s, a => if k.isFile s then some (set s a) else none

/-- values.go: `IsBoolFlag`. -/
def Var.isBool {α : Type} : Var α → Bool
  | .bool _ | .counter _ => true
  | _ => false

/-- values.go: `IsCumulative`. -/
def Var.isCumulative {α : Type} : Var α → Bool
  | .counter _ => true
  | _ => false

/-- flags.go `type FlagClause struct`; `short` is a byte here, and the defaults are one or none. -/
structure Flag (α : Type) where
  name : Str
  short : Option UInt8 := none
  var : Var α
  default : Option Str := none

/-- args.go `type ArgClause struct`; all are `Required`. -/
structure Arg (α : Type) where
  name : Str
  var : Var α

/-- cmd.go `type CmdClause struct`: `names` are the name and the aliases; `action` is what `Action`
registers. -/
inductive Cmd (α : Type) where
  | mk (names : List Str) (flags : List (Flag α)) (args : List (Arg α)) (subs : List (Cmd α))
    (isDefault : Bool) (action : α → α)

namespace Cmd
variable {α : Type}
def names : Cmd α → List Str | .mk n _ _ _ _ _ => n
def flags : Cmd α → List (Flag α) | .mk _ f _ _ _ _ => f
def args : Cmd α → List (Arg α) | .mk _ _ a _ _ _ => a
def subs : Cmd α → List (Cmd α) | .mk _ _ _ s _ _ => s
def isDefault : Cmd α → Bool | .mk _ _ _ _ d _ => d
def action : Cmd α → α → α | .mk _ _ _ _ _ a => a
end Cmd

/-- app.go: the application. -/
structure App (α : Type) where
  flags : List (Flag α)
  cmds : List (Cmd α)

/-- parser.go `type Token struct`. -/
inductive Token where
  | short (name : Option UInt8)
  | long (name : Str)
  | arg (s : Str)
  | file
  | eol
deriving DecidableEq

/-- parser.go `type ParseElement struct`. -/
inductive Element (α : Type) where
  | flag (f : Flag α) (value : Str)
  | arg (a : Arg α) (value : Str)
  | cmd (c : Cmd α)

/-- Whether this is the flag of that name. -/
def Element.isFlag {α : Type} (name : Str) : Element α → Bool
  | .flag g _ => g.name = name
  | _ => false

/-- The command, if this is one. -/
def Element.command {α : Type} : Element α → Option (Cmd α)
  | .cmd c => some c
  | _ => none

/-- parser.go `type ParseContext struct`; `peek` is a stack. -/
structure Ctx (α : Type) where
  peek : List Token := []
  args : List Str
  argsOnly : Bool := false
  flags : List (Flag α) := []
  /-- the arguments not matched yet -/
  arguments : List (Arg α) := []
  elements : List (Element α) := []

section parser
variable {α : Type}

/-- `flags.long[name]`; flags merged later replace earlier ones. -/
def findLong (flags : List (Flag α)) (name : Str) : Option (Flag α) :=
  flags.reverse.find? fun f => f.name = name

/-- `flags.short[name]`. -/
def findShort (flags : List (Flag α)) (name : UInt8) : Option (Flag α) :=
  flags.reverse.find? fun f => f.short = some name

/-- parser.go `Next` on the argument `arg`, which has been taken off. The rune of a short flag is its
first byte here: no flag has another, so a longer rune is unknown either way. -/
def nextOf (c : Ctx α) (arg : Str) : Token × Ctx α :=
  match arg with
  | 45 :: 45 :: rest =>
    match rest.dropWhile (· ≠ 61) with
    | 61 :: v => (.long (rest.takeWhile (· ≠ 61)), { c with peek := .arg v :: c.peek })
    | _ => (.long (rest.takeWhile (· ≠ 61)), c)
  | [45] => (.short none, c)
  | 45 :: x :: rest =>
    let joined : Bool := match findShort c.flags x with
      | some f => !f.var.isBool
      | none => false
    if rest = [] then (.short (some x), c)
    else if joined then (.short (some x), { c with peek := .arg rest :: c.peek })
    else (.short (some x), { c with args := (45 :: rest) :: c.args })
  | 64 :: _ => (.file, c)
  | _ => (.arg arg, c)

/-- parser.go `Next`. -/
def Ctx.next (c : Ctx α) : Token × Ctx α :=
  match c.peek with
  | t :: rest => (t, { c with peek := rest })
  | [] =>
    match c.args with
    | [] => (.eol, c)
    | arg :: rest =>
      if c.argsOnly then (.arg arg, { c with args := rest })
      else if arg = b!"--" then
        match rest with
        | [] => (.eol, { c with args := [], argsOnly := true })
        | arg' :: rest' => (.arg arg', { c with args := rest', argsOnly := true })
      else nextOf { c with args := rest } arg

/-- parser.go `Push`. -/
def Ctx.push (c : Ctx α) (t : Token) : Ctx α := { c with peek := t :: c.peek }

/-- parser.go `Peek`. -/
def Ctx.look (c : Ctx α) : Token × Ctx α :=
  match c.peek with
  | t :: _ => (t, c)
  | [] => let r := c.next; (r.1, r.2.push r.1)

/-- parser.go `matchedCmd`, `mergeFlags`, `mergeArgs`. -/
def Ctx.matchedCmd (c : Ctx α) (cmd : Cmd α) : Ctx α :=
  { c with elements := c.elements ++ [.cmd cmd], flags := c.flags ++ cmd.flags,
           arguments := c.arguments ++ cmd.args }

/-- The flags kingpin adds (app.go `New`). -/
def helpFlags : List Str :=
  [b!"help", b!"help-long", b!"help-man", b!"completion-bash", b!"completion-script-bash",
   b!"completion-script-zsh"]

/-- flags.go `parse`, once the flag has been found: `ctx` is at the flag's token. -/
def parseFlagValue (ctx : Ctx α) (flag : Flag α) (invert : Bool) : Res (Ctx α) :=
  let ctx := ctx.next.2
  if flag.var.isBool then
    .ok { ctx with elements := ctx.elements ++ [.flag flag (if invert then b!"false" else b!"true")] }
  else if invert then .error
  else
    match ctx.look with
    | (.arg v, ctx) => .ok { ctx.next.2 with elements := ctx.elements ++ [.flag flag v] }
    | (.file, _) => .file
    | _ => .error

/-- flags.go `parse` of a flag group: the token of `ctx` is a flag. -/
def parseFlag (ctx : Ctx α) : Res (Ctx α) :=
  match ctx.look with
  | (.long name, ctx) =>
    match findLong ctx.flags name with
    | some f => parseFlagValue ctx f false
    | none =>
      if name ∈ helpFlags then .help
      else
        match name with
        | 110 :: 111 :: 45 :: rest =>
          match findLong ctx.flags rest with
          | some f => parseFlagValue ctx f true
          | none => if rest ∈ helpFlags then .help else .error
        | _ => .error
  | (.short (some x), ctx) =>
    match findShort ctx.flags x with
    | some f => parseFlagValue ctx f false
    | none => .error
  | (_, _) => .error

/-- cmd.go `defaultSubcommand`. -/
def defaultCmd (cmds : List (Cmd α)) : Option (Cmd α) := cmds.find? Cmd.isDefault

/-- The command selected last. -/
def lastCmd (elements : List (Element α)) : Option (Cmd α) :=
  (elements.filterMap Element.command).getLast?

/-- parser.go `parse`: the loop, and `cmds`. `fuel` bounds the number of rounds; each takes something
off the arguments or goes down to a subcommand. -/
def parseLoop : Nat → List (Cmd α) → Ctx α → Res (List (Cmd α) × Ctx α)
  | 0, _, _ => .error
  | fuel + 1, cmds, ctx =>
    match ctx.look with
    | (.eol, ctx) => .ok (cmds, ctx)
    | (.file, _) => .file
    | (.long _, ctx) | (.short _, ctx) =>
      match parseFlag ctx with
      | .ok ctx => parseLoop fuel cmds ctx
      | .error =>
        match defaultCmd cmds with
        | some cmd => parseLoop fuel cmd.subs (ctx.matchedCmd cmd)
        | none => .error
      | .help => .help
      | .file => .file
    | (.arg s, ctx) =>
      if cmds ≠ [] then
        match cmds.find? fun cmd => s ∈ cmd.names with
        | some cmd => parseLoop fuel cmd.subs (ctx.matchedCmd cmd).next.2
        | none =>
          if s = b!"help" ∧ (lastCmd ctx.elements).isNone then .help
          else
            match defaultCmd cmds with
            | some cmd => parseLoop fuel cmd.subs (ctx.matchedCmd cmd)
            | none => .error
      else
        match ctx.arguments with
        | [] => .ok (cmds, ctx)
        | a :: rest =>
          parseLoop fuel cmds
            ({ ctx with arguments := rest, elements := ctx.elements ++ [.arg a s] } : Ctx α).next.2

/-- parser.go `parse`, after the loop: the innermost default command, and that nothing is left. There
are two levels of commands. -/
def parseEnd (cmds : List (Cmd α)) (ctx : Ctx α) : Res (Ctx α) :=
  let ctx := match defaultCmd cmds with
    | some cmd => ctx.matchedCmd cmd
    | none => ctx
  match ctx.look with
  | (.eol, ctx) => .ok ctx
  | _ => .error

/-- The number of rounds that suffice. -/
def fuelFor (args : List Str) : Nat := (args.map fun a => a.length + 1).sum + 4

/-- app.go `setDefaults`: the flags not given that have a default. -/
def setDefaults (k : Checks) (elements : List (Element α)) : List (Flag α) → α → Option α
  | [], a => some a
  | f :: rest, a =>
    match f.default with
    | none => setDefaults k elements rest a
    | some v =>
      if elements.any (Element.isFlag f.name) then setDefaults k elements rest a
      else (f.var.set k v a).bind (setDefaults k elements rest)

/-- app.go `setValues`; `seen` are the names of the flags set. (The library also does this when the rest
of the line is an error: a debug log is opened then, too.) -/
def setValues (k : Checks) : List (Element α) → List Str → α → Option α
  | [], _, a => some a
  | .flag f v :: rest, seen, a =>
    if f.name ∈ seen ∧ f.var.isCumulative = false then none
    else (f.var.set k v a).bind (setValues k rest (f.name :: seen))
  | .arg x v :: rest, seen, a => (x.var.set k v a).bind (setValues k rest seen)
  | .cmd _ :: rest, seen, a => setValues k rest seen a

/-- app.go `execute`, `validateRequired`, `applyActions`: every argument must have been given, and the
actions of the selected commands run in order. -/
def runActions : List (Element α) → α → α
  | [], a => a
  | .cmd c :: rest, a => runActions rest (c.action a)
  | _ :: rest, a => runActions rest a

/-- app.go `Parse`, after `ParseContext`: `setDefaults`, `setValues` and `execute`. -/
def finish (k : Checks) (ctx : Ctx α) (a : α) : Res α :=
  match (setDefaults k ctx.elements ctx.flags a).bind (setValues k ctx.elements []) with
  | none => .error
  | some a =>
    match lastCmd ctx.elements with
    | none => .error
    | some c =>
      if c.subs ≠ [] then .error
      else if ctx.arguments ≠ [] then .error
      else .ok (runActions ctx.elements a)

/-- app.go `Parse`. -/
def App.parse (app : App α) (k : Checks) (args : List Str) (a : α) : Res α :=
  match parseLoop (fuelFor args) app.cmds { args := args, flags := app.flags } with
  | .error => .error
  | .help => .help
  | .file => .file
  | .ok (cmds, ctx) =>
    match parseEnd cmds ctx with
    | .error => .error
    | .help => .help
    | .file => .file
    | .ok ctx => finish k ctx a

end parser

end Verif.Cli
