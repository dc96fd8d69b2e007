import Verif.Base.GoMap

/-!
# Model of `/repo/internal/runbook/sh` (`Env.Apply`, `Exec.Check`, the environment of a command)
-/

namespace Verif.Sh
open Verif

/-- Go `strings.Index(s, c)` for a one-byte `c`; Go's `-1` is `none`. -/
def indexByte (c : UInt8) : Str → Option Nat
  | [] => none
  | b :: s => if b = c then some 0 else (indexByte c s).map (· + 1)

/-- sh/env.go:8-12 `type Env struct`. -/
structure Env where
  /-- env.go:9 -/
  allow : List Str := []
  /-- env.go:10 -/
  deny : List Str := []
  /-- env.go:11; the list order is the iteration order of the range loops -/
  set : GoMap Str Str := []
deriving DecidableEq, Repr

/-- sh/env.go:17-20 and 22-25: turning a slice into a set. -/
def toSet : List Str → GoMap Str Unit → GoMap Str Unit
  | [], m => m
  | k :: ks, m => toSet ks (m.set k ())

/-- sh/env.go:27-30: the map from a key to its "key=val" entry. -/
def entries : GoMap Str Str → GoMap Str Str → GoMap Str Str
  | [], m => m
  | (k, v) :: rest, m => entries rest (m.set k (k ++ 61 :: v))

/-- sh/env.go:35-38: the key of an environment entry. -/
def keyOf (kv : Str) : Str :=
  match indexByte 61 kv with
  | some (i + 1) => kv.take (i + 1)
  | _ => kv

/-- sh/env.go:34-56: the loop over `environ`, with the two variables it updates. -/
def filterLoop (allow deny : GoMap Str Unit) (set : GoMap Str Str) :
    List Str → List Str → GoMap Str Unit → List Str × GoMap Str Unit
  | [], tmp, updated => (tmp, updated)
  | kv :: environ, tmp, updated =>
    let key := keyOf kv
    match set.get? key with
    | some newkv => filterLoop allow deny set environ (tmp ++ [newkv]) (updated.set key ())
    | none =>
      if allow.length > 0 then
        if allow.has key then filterLoop allow deny set environ (tmp ++ [kv]) updated
        else filterLoop allow deny set environ tmp updated
      else if deny.length > 0 then
        if !deny.has key then filterLoop allow deny set environ (tmp ++ [kv]) updated
        else filterLoop allow deny set environ tmp updated
      else filterLoop allow deny set environ (tmp ++ [kv]) updated

/-- sh/env.go:58-62: the loop adding the entries that replaced nothing. -/
def addLoop (updated : GoMap Str Unit) : List (Str × Str) → List Str → List Str
  | [], tmp => tmp
  | (key, kv) :: rest, tmp =>
    if !updated.has key then addLoop updated rest (tmp ++ [kv]) else addLoop updated rest tmp

/-- sh/env.go:16-64 `Apply`. -/
def Env.apply (e : Env) (environ : List Str) : List Str :=
  let allow := toSet e.allow []
  let deny := toSet e.deny []
  let set := entries e.set []
  let r := filterLoop allow deny set environ [] []
  addLoop r.2 set r.1

/-- sh/exec.go:14-19 `type Exec struct`. -/
structure Exec where
  /-- exec.go:16 -/
  args : List Str := []
  /-- exec.go:18 -/
  env : Env := {}
deriving DecidableEq, Repr

/-- The errors of sh/exec.go:34 and 47. -/
inductive CheckError where
  | tooFewArgs
  | illegalCommand (arg0 : Str)
deriving DecidableEq, Repr

/-- Go `strings.Contains(s, "/")`. -/
def containsSlash (s : Str) : Bool := (indexByte 47 s).isSome

/-- Go `strings.HasPrefix(s, p)`. -/
def hasPrefix (s p : Str) : Bool := s.take p.length == p

/-- sh/exec.go:39-50 `validateArg0`; `none` is a nil error. -/
def validateArg0 (arg0 : Str) : Option CheckError :=
  if !containsSlash arg0 then none
  else if hasPrefix arg0 b!"/" then none
  else if hasPrefix arg0 b!"./" then none
  else if hasPrefix arg0 b!"../" then none
  else some (.illegalCommand arg0)

/-- sh/exec.go:32-37 `Check`. -/
def Exec.check (x : Exec) : Option CheckError :=
  match x.args with
  | [] => some .tooFewArgs
  | arg0 :: _ => validateArg0 arg0

/-- What `exec.CommandContext` and the assignments to `cmd` fix before the command runs. -/
structure Command where
  path : Str
  args : List Str
  dir : Str
  env : List Str
deriving DecidableEq, Repr

/-- sh/sh.go:22-31 `type Target struct` (writers and logger omitted). -/
structure Target where
  /-- sh.go:24 -/
  basedir : Str := []
  /-- sh.go:25 -/
  environ : List Str := []
  /-- sh.go:29, initialised by `NewTarget` (sh.go:45) -/
  concurrency : Int := 1
  /-- sh.go:30 -/
  env : Env := {}
deriving DecidableEq, Repr

/-- sh/sh.go:80-83 `Start`; `osEnviron` is `os.Environ()`. -/
def Target.start (t : Target) (osEnviron : List Str) : Target :=
  { t with environ := t.env.apply osEnviron }

/-- sh/exec.go:21-29 `exec` up to `cmd.Run()`; `none` is the index-out-of-range panic of
`x.Args[0]`. -/
def Exec.command (x : Exec) (t : Target) : Option Command :=
  match x.args with
  | [] => none
  | arg0 :: rest => some { path := arg0, args := rest, dir := t.basedir, env := x.env.apply t.environ }

end Verif.Sh
