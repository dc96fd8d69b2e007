import Verif.Book.Model
import Verif.Ddl.Params

/-!
# Model of the decoding of a runbook (`/repo/internal/runbook/parser/parser.go`:21-32, 51-81, 91-99,
127-135) with `encoding/json`

`Verif.Book` takes the decoded file and an arbitrary decoder of the `config` messages.  This module
models both for a file that has been evaluated to a JSON value: how `Decode`, with
`DisallowUnknownFields`, fills the structs of parser.go, of the targets and of the tasks.

Simplifications:
* the JSON text is a tree; strings are their bytes (valid UTF-8) and numbers their digits;
* decoding stops at the first error.  The library goes on, and returns the first error at the end;
* an array that is given again and is longer than before has empty strings beyond the old end.  The
  library leaves there what an even earlier, longer array had put there, which makes a difference only
  for a `null` in an array that is given for the third time.
-/

namespace Verif.Json
open Verif Book

/-- A JSON value. -/
inductive Value where
  | null
  | bool (b : Bool)
  /-- the number as it is written -/
  | num (lit : Str)
  | str (s : Str)
  | arr (l : List Value)
  | obj (l : List (Str × Value))

/-- `encoding/json` fold.go `equalFoldRight`, for an ASCII name `s`: letters in either case, and the
Kelvin sign and the long s.  The library uses two faster functions for names without k and s, with the
same result. -/
def equalFold : Str → Str → Bool
  | [], [] => true
  | [], _ :: _ => false
  | _ :: _, [] => false
  | sb :: s, tb :: t =>
    if tb < 128 then
      if sb = tb then equalFold s t
      else if 65 ≤ sb &&& 223 ∧ sb &&& 223 ≤ 90 then
        if sb &&& 223 = tb &&& 223 then equalFold s t else false
      else false
    else if sb = 115 ∨ sb = 83 then
      match tb :: t with
      | 0xC5 :: 0xBF :: t' => equalFold s t'
      | _ => false
    else if sb = 107 ∨ sb = 75 then
      match tb :: t with
      | 0xE2 :: 0x84 :: 0xAA :: t' => equalFold s t'
      | _ => false
    else false

/-- A field of a Go struct: its name (that of the tag if there is one), how it is read and assigned,
and how a JSON value is decoded over its value. -/
structure Fld (α : Type) where
  name : Str
  β : Type
  get : α → β
  put : α → β → α
  dec : Value → β → Except Str β

/-- `encoding/json` decode.go `object`: the field of that name, or else the first one of that name in
another case. -/
def findField {α : Type} (fields : List (Fld α)) (key : Str) : Option (Fld α) :=
  match fields.find? (fun f => f.name = key) with
  | some f => some f
  | none => fields.find? (fun f => equalFold f.name key)

/-- `object`: the members, one after the other; unknown fields are disallowed (parser.go:60, 95, 131). -/
def members {α : Type} (fields : List (Fld α)) : List (Str × Value) → α → Except Str α
  | [], a => .ok a
  | (key, v) :: ms, a =>
    match findField fields key with
    | none => .error b!"json: unknown field"
    | some f =>
      match f.dec v (f.get a) with
      | .error e => .error e
      | .ok b => members fields ms (f.put a b)

/-- The error for a value of the wrong kind. -/
def mismatch {α : Type} : Except Str α := .error b!"json: cannot unmarshal"

/-- Decoding into a struct: `null` changes nothing. -/
def struct {α : Type} (fields : List (Fld α)) : Value → α → Except Str α
  | .null, a => .ok a
  | .obj ms, a => members fields ms a
  | _, _ => mismatch

/-- Decoding into a `string`: `null` changes nothing. -/
def string : Value → Str → Except Str Str
  | .null, s => .ok s
  | .str s, _ => .ok s
  | _, _ => mismatch

/-- Decoding into an `int`, with `strconv.ParseInt`. -/
def int : Value → Int → Except Str Int
  | .null, n => .ok n
  | .num lit, _ =>
    match Ddl.atoi lit with
    | (n, none) => .ok n
    | (_, some _) => mismatch
  | _, _ => mismatch

/-- Decoding into a `uint16`, with `strconv.ParseUint`, which takes no sign. -/
def uint16 : Value → UInt16 → Except Str UInt16
  | .null, n => .ok n
  | .num lit, _ =>
    if lit ≠ [] ∧ Ddl.allDigits lit ∧ Ddl.digitsVal lit < 65536 then .ok (.ofNat (Ddl.digitsVal lit))
    else mismatch
  | _, _ => mismatch

/-- `encoding/json` decode.go `array`, for an array of strings: each element is decoded over the one
that was there, or over the empty string. -/
def elements : List Str → List Value → Except Str (List Str)
  | _, [] => .ok []
  | old, v :: vs =>
    match string v (old.headD []) with
    | .error e => .error e
    | .ok s =>
      match elements old.tail vs with
      | .error e => .error e
      | .ok l => .ok (s :: l)

/-- Decoding into a `[]string`: `null` is nil. -/
def strings : Value → List Str → Except Str (List Str)
  | .null, _ => .ok []
  | .arr vs, old => elements old vs
  | _, _ => mismatch

/-- `object` for a map: every value is decoded on its own and stored. -/
def entries {β : Type} (dec : Value → Except Str β) : List (Str × Value) → GoMap Str β →
    Except Str (GoMap Str β)
  | [], m => .ok m
  | (key, v) :: ms, m =>
    match dec v with
    | .error e => .error e
    | .ok b => entries dec ms (m.set key b)

/-- Decoding into a map: `null` is nil. -/
def map {β : Type} (dec : Value → Except Str β) : Value → GoMap Str β → Except Str (GoMap Str β)
  | .null, _ => .ok []
  | .obj ms, m => entries dec ms m
  | _, _ => mismatch

/-- Decoding into a pointer to a struct: `null` is nil. -/
def pointer {α : Type} (fields : List (Fld α)) (zero : α) : Value → Except Str (Option α)
  | .null => .ok none
  | v => (struct fields v zero).map some

/-! ## The structs -/

/-- sh/env.go:8-12 -/
def envFields : List (Fld Sh.Env) :=
  [⟨b!"Allow", _, Sh.Env.allow, fun e x => { e with allow := x }, strings⟩,
   ⟨b!"Deny", _, Sh.Env.deny, fun e x => { e with deny := x }, strings⟩,
   ⟨b!"Set", _, Sh.Env.set, fun e x => { e with set := x }, map fun v => string v []⟩]

/-- sh/sh.go:28-29 -/
def shFields : List (Fld Sh.Target) :=
  [⟨b!"Concurrency", _, Sh.Target.concurrency, fun t x => { t with concurrency := x }, int⟩,
   ⟨b!"Env", _, Sh.Target.env, fun t x => { t with env := x }, struct envFields⟩]

/-- pg/pg.go:23-32 -/
def pgFields : List (Fld PgTarget) :=
  [⟨b!"Concurrency", _, PgTarget.concurrency, fun t x => { t with concurrency := x }, int⟩,
   ⟨b!"Host", _, PgTarget.host, fun t x => { t with host := x }, string⟩,
   ⟨b!"Port", _, PgTarget.port, fun t x => { t with port := x }, uint16⟩,
   ⟨b!"sslmode", _, PgTarget.sslmode, fun t x => { t with sslmode := x }, string⟩,
   ⟨b!"Username", _, PgTarget.username, fun t x => { t with username := x }, string⟩,
   ⟨b!"Password", _, PgTarget.password, fun t x => { t with password := x }, string⟩,
   ⟨b!"Database", _, PgTarget.database, fun t x => { t with database := x }, string⟩,
   ⟨b!"connect_retries", _, PgTarget.connectRetries, fun t x => { t with connectRetries := x }, int⟩]

/-- demo/demo.go:22 -/
def demoFields : List (Fld Demo.Target) :=
  [⟨b!"String", _, Demo.Target.string, fun t x => { t with string := x }, string⟩]

/-- sh/exec.go:15-18 -/
def execFields : List (Fld Sh.Exec) :=
  [⟨b!"Args", _, Sh.Exec.args, fun t x => { t with args := x }, strings⟩,
   ⟨b!"Env", _, Sh.Exec.env, fun t x => { t with env := x }, struct envFields⟩]

/-- pg/exec.go:12-14 -/
def sqlFields : List (Fld Str) := [⟨b!"sql", _, id, fun _ x => x, string⟩]

/-- demo/tasks.go:92-94 -/
def sleepFields : List (Fld Demo.Sleep) :=
  [⟨b!"Seconds", Int, fun x => x.seconds.toInt, fun _ n => ⟨.ofInt n⟩, int⟩]

/-- demo/tasks.go:12, 27, 43, 64: structs without fields -/
def noFields : List (Fld Unit) := []

/-- `dec.Decode(target)` (parser.go:92-98) -/
def decodeTarget (v : Value) : Target → Except Str Target
  | .pg t => (struct pgFields v t).map .pg
  | .sh t => (struct shFields v t).map .sh
  | .demo t => (struct demoFields v t).map .demo

/-- `dec.Decode(taskConfig)` (parser.go:128-134) -/
def decodeConfig (v : Value) : Config → Except Str Config
  | .pgExec x => (struct sqlFields v x).map .pgExec
  | .shExec x => (struct execFields v x).map .shExec
  | .sleep x => (struct sleepFields v x).map .sleep
  | c => (struct noFields v ()).map fun _ => c

/-- The text of JSON values: what `json.RawMessage` keeps of a value (parser.go:24, 30), and what a
decoder reads. -/
structure Text where
  raw : Value → Str
  read : Str → Option Value
  read_raw : ∀ v, read (raw v) = some v
  raw_ne : ∀ v, raw v ≠ []

/-- The decoder of `config` messages. -/
def decoder (tx : Text) : Decoder where
  target m t :=
    match tx.read m with
    | none => .error b!"invalid character"
    | some v => decodeTarget v t
  config m c :=
    match tx.read m with
    | none => .error b!"invalid character"
    | some v => decodeConfig v c

/-- parser.go:22-25; a `json.RawMessage` takes the text of any value, `null` included -/
def targetFields (tx : Text) : List (Fld TargetSrc) :=
  [⟨b!"Class", _, TargetSrc.class_, fun t x => { t with class_ := x }, string⟩,
   ⟨b!"Config", _, TargetSrc.config, fun t x => { t with config := x }, fun v _ => .ok (tx.raw v)⟩]

/-- parser.go:26-31 -/
def taskFields (tx : Text) : List (Fld TaskSrc) :=
  [⟨b!"After", _, TaskSrc.after, fun t x => { t with after := x }, strings⟩,
   ⟨b!"Target", _, TaskSrc.target, fun t x => { t with target := x }, string⟩,
   ⟨b!"Message", _, TaskSrc.message, fun t x => { t with message := x }, string⟩,
   ⟨b!"Config", _, TaskSrc.config, fun t x => { t with config := x }, fun v _ => .ok (tx.raw v)⟩]

/-- parser.go:21-32 -/
def fileFields (tx : Text) : List (Fld Src) :=
  [⟨b!"Targets", _, Src.targets, fun t x => { t with targets := x },
      map (pointer (targetFields tx) ⟨[], []⟩)⟩,
   ⟨b!"Tasks", _, Src.tasks, fun t x => { t with tasks := x },
      map (pointer (taskFields tx) ⟨[], [], [], []⟩)⟩]

/-- parser.go:57-66: the first decode -/
def decodeFile (tx : Text) (doc : Value) : Except Str Src := struct (fileFields tx) doc ⟨[], []⟩

/-- parser.go:51-81 `Parse`, from the value the file evaluates to -/
def parse (tx : Text) (basedir : Str) (doc : Value) : Res Runbook :=
  match decodeFile tx doc with
  | .error e => .error (.json e)
  | .ok src => Book.parse (decoder tx) basedir src

end Verif.Json
