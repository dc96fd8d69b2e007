import Verif.Book.Model
import Verif.Runner.Model
import Verif.Pg.Connect

/-!
# Model of `runbook.Run` (`/repo/internal/runbook/runbook.go`:132-146) with the targets' effects

`Parse` (`Verif.Book.parse`), then the runner (`Verif.Runner.Step`), with `Start` and `Handle` of the
three target classes in place of arbitrary outcomes.  Reading and evaluating the file comes before
the model: it begins with the decoded runbook, as `Verif.Book.parse` does.

Simplifications:
* the effect of `Handle` takes place when it returns.  A target handles one task at a time, and an
  effect on standard output could as well have been followed at once by the return;
* standard output takes everything (`fmt.Fprintln` does not fail);
* the commands and SQL statements run are recorded; whether one succeeds and what it prints is
  arbitrary at every call, and so is the outcome of every attempt to connect;
* overflow of the sum of the concurrency limits is not modelled here (`Verif/Runner/Room.lean` does): a program that asks for too large
  channels ends with a panic.
-/

namespace Verif.Run
open Verif Book

/-- runner.go:36-41: what the runner asks the targets for. -/
def limits (book : Runbook) : GoMap Str Int :=
  book.targets.map fun p => (p.1, p.2.concurrencyLimit)

/-- scheduler.go:22-35: what the scheduler reads of the tasks. -/
def jobs (book : Runbook) : GoMap Str Sched.Task :=
  book.tasks.map fun p => (p.1, ⟨p.2.target, p.2.after⟩)

/-- What the process finds: `os.Environ()`, the outcome of `pgx.ParseEnvLibpq`, and the capacity up to
which channels can be made (`make` panics beyond it). -/
structure Proc where
  environ : List Str
  libpq : Except Unit Pg.ConnConfig
  maxChan : Int

/-- What a task does outside the program. -/
inductive Call where
  /-- SQL sent over the connection of target `q` -/
  | sql (q text : Str)
  /-- a command run -/
  | command (c : Sh.Command)
deriving DecidableEq

/-- What the tasks act upon: the targets, which are pointers, standard output, which is the same
writer for all of them (runbook.go:31-43), and the world outside: which task did what, and whether it
succeeded; which target connected to which server. -/
structure World where
  targets : GoMap Str Target
  stdout : Str := []
  calls : List (Str × Call × Bool) := []
  /-- the `conn` fields of pg targets (pg/pg.go:21) that have been set; `false` is a `Conn` that holds
  a nil connection -/
  conns : GoMap Str Bool := []
  net : List (Str × Pg.Event) := []
  /-- the targets whose connection has been closed -/
  closed : List Str := []
deriving DecidableEq

/-- `munge`: demo/tasks.go:14-17, 31-33, 45-54, 66-82, 96-101.  `none` is a panic and `true` a nil
error. -/
def munge (t : Demo.Target) : Config → Option (Bool × Demo.Target)
  | .echo => some (true, Demo.echo t)
  | .fail => some (Demo.failOk, t)
  | .rev => (Demo.rev t).map fun t' => (true, t')
  | .rot13 => some (true, Demo.rot13 t)
  | .sleep _ => some (true, t)
  -- demo/demo.go:52: not a munger
  | _ => some (false, t)

/-- `Handle`: pg/pg.go:62-67, sh/sh.go:63-68, demo/demo.go:48-53, on target `t` (named `q`) with the
connection `conn` and `out` written to standard output so far.  `ext` is the outcome of a command or SQL statement: whether it
succeeds and what it prints.  The result says whether the error is nil, what has become of the target
and of standard output, and what was done outside; `none` is a panic. -/
def handle (q : Str) (t : Target) (conn : Option Bool) (c : Config) (out : Str) (ext : Bool × Str) :
    Option (Bool × Target × Str × List Call) :=
  match t with
  | .pg _ =>
    match c with
    -- pg/exec.go:16-18, internal/pg/pg.go:88-95 `Exec`, which dereferences the connection
    | .pgExec sql => if conn = some true then some (ext.1, t, out, [.sql q sql]) else none
    | _ => some (false, t, out, [])
  | .sh s =>
    match c with
    -- sh/exec.go:21-29
    | .shExec x =>
      match x.command s with
      | none => none
      | some cmd => some (ext.1, t, out ++ ext.2, [.command cmd])
    | _ => some (false, t, out, [])
  | .demo d =>
    match munge { d with stdout := out } c with
    | none => none
    | some (ok, d') => some (ok, .demo d', d'.stdout, [])

/-- pg/pg.go:80-91: the options given to `pg.New`. -/
def options (t : PgTarget) : Pg.Options :=
  { host := t.host, port := t.port, sslMode := t.sslmode, username := t.username,
    password := t.password, database := t.database, connectRetries := t.connectRetries }

/-- `Start`: pg/pg.go:79-96, sh/sh.go:80-83, demo/demo.go:73-75.  `ok i` is the outcome of the attempt
`i` to connect.  The result is what went over the network, and the target and its connection, if it
has one; `none` is an error. -/
def start (proc : Proc) (ok : Nat → Bool) : Target → List Pg.Event × Option (Target × Option Bool)
  | .pg t =>
    let r := Pg.new proc.libpq ok (options t)
    (r.1, match r.2 with
      | .conn _ => some (.pg t, some true)
      | .nilConn => some (.pg t, some false)
      | .err _ => none)
  | .sh t => ([], some (.sh (t.start proc.environ), none))
  | .demo t => ([], some (.demo t, none))

/-- `Stop`: pg/pg.go:99-101, sh/sh.go:86-88, demo/demo.go:78-80: whether it closes a connection.
`Close` (internal/pg/pg.go:83-85) dereferences it; `none` is a panic. -/
def stop (t : Target) (conn : Option Bool) : Option Bool :=
  match t with
  | .pg _ => if conn = some true then some true else none
  | _ => some false

/-- pg/pg.go:92-94: the connection is stored in the target. -/
def World.connect (w : World) (q : Str) : Option Bool → GoMap Str Bool
  | none => w.conns
  | some c => w.conns.set q c

/-- The state of the program. -/
inductive Prog where
  /-- `Parse` returned an error, and so does `Run` (runbook.go:138-140). -/
  | rejected (e : Err)
  | panicked
  /-- runbook.go:143-144 -/
  | running (book : Runbook) (st : Runner.St) (w : World)

/-- One action of the runner and what it does to the world. -/
inductive Act (proc : Proc) (book : Runbook) :
    Runner.St × World → Runner.St × World → Prop
  /-- `Start` returns nil (runner.go:131-139, as `Runner.Step.targetStart`). -/
  | started {st : Runner.St} {w : World} (q : Str) (rest : List Str) (tgt tgt' : Target)
      (conn : Option Bool) (net : List Pg.Event) (ok : Nat → Bool)
      (h : st.main = .starting (q :: rest)) (hq : w.targets.get? q = some tgt)
      (hs : start proc ok tgt = (net, some (tgt', conn))) :
      Act proc book (st, w) (
        { st with
          main := .starting rest, tgt := Function.update st.tgt q .idle,
          trace := st.trace ++ [.started q] },
        { w with
          targets := w.targets.set q tgt', conns := w.connect q conn,
          net := w.net ++ net.map fun e => (q, e) })
  /-- `Start` returns an error (runner.go:131-134, as `Runner.Step.targetStartFail`). -/
  | startFailed {st : Runner.St} {w : World} (q : Str) (rest : List Str) (tgt : Target)
      (net : List Pg.Event) (ok : Nat → Bool) (h : st.main = .starting (q :: rest))
      (hq : w.targets.get? q = some tgt) (hs : start proc ok tgt = (net, none)) :
      Act proc book (st, w) (
        { st with
          main := .failing q, router := .recv, trace := st.trace ++ [.startFailed q] },
        { w with net := w.net ++ net.map fun e => (q, e) })
  /-- `Handle` returns what it returns (runner.go:177, as `Runner.Step.handleEnd`). -/
  | handled {st : Runner.St} {w : World} (q t : Str) (task : Task) (tgt tgt' : Target)
      (ok : Bool) (out : Str) (calls : List Call) (ext : Bool × Str) (h : st.tgt q = .running t)
      (ht : book.tasks.get? t = some task) (hq : w.targets.get? q = some tgt)
      (hh : handle q tgt (w.conns.get? q) task.config w.stdout ext = some (ok, tgt', out, calls)) :
      Act proc book (st, w) (
        { st with
          tgt := Function.update st.tgt q (.reporting t ok),
          trace := st.trace ++ [.handleEnd q t ok] },
        { w with
          targets := w.targets.set q tgt', stdout := out,
          calls := w.calls ++ calls.map fun c => (t, c, ext.1) })
  /-- `Stop` returns (runner.go:183-184, as `Runner.Step.targetStop`). -/
  | stopped {st : Runner.St} {w : World} (q : Str) (tgt : Target) (closes : Bool)
      (h : st.tgt q = .stopping) (hq : w.targets.get? q = some tgt)
      (hs : stop tgt (w.conns.get? q) = some closes) :
      Act proc book (st, w) (
        { st with
          tgt := Function.update st.tgt q .stopped, trace := st.trace ++ [.stopped q] },
        { w with closed := w.closed ++ if closes then [q] else [] })
  /-- Everything else is as in the runner. -/
  | other {st st' : Runner.St} {w : World}
      (h : Runner.Step (limits book) (jobs book) st st')
      (h1 : ∀ q, st'.trace ≠ st.trace ++ [.started q])
      (h2 : ∀ q, st'.trace ≠ st.trace ++ [.startFailed q])
      (h3 : ∀ q t ok, st'.trace ≠ st.trace ++ [.handleEnd q t ok])
      (h4 : ∀ q, st'.trace ≠ st.trace ++ [.stopped q]) :
      Act proc book (st, w) (st', w)

/-- A goroutine is about to panic, which ends the program. -/
inductive Panics (book : Runbook) (st : Runner.St) (w : World) : Prop
  /-- in `Handle` -/
  | handle (q t : Str) (task : Task) (tgt : Target) (ext : Bool × Str) (hr : st.tgt q = .running t)
      (ht : book.tasks.get? t = some task) (hq : w.targets.get? q = some tgt)
      (hh : handle q tgt (w.conns.get? q) task.config w.stdout ext = none)
  /-- in `Stop` -/
  | stop (q : Str) (tgt : Target) (hr : st.tgt q = .stopping) (hq : w.targets.get? q = some tgt)
      (hs : stop tgt (w.conns.get? q) = none)

/-- The states `runbook.Run` can be in on the decoded runbook `src`. -/
inductive Reach (dec : Decoder) (basedir : Str) (proc : Proc) (src : Src) : Prog → Prop
  /-- runbook.go:138-141 -/
  | rejected {e : Err} (h : parse dec basedir src = .error e) :
      Reach dec basedir proc src (.rejected e)
  | parsePanic (h : parse dec basedir src = .panic) : Reach dec basedir proc src .panicked
  /-- runner.go:50-52: the channels are too large -/
  | makePanic {book : Runbook} (h : parse dec basedir src = .ok book)
      (hm : proc.maxChan < Runner.capacity (limits book)) : Reach dec basedir proc src .panicked
  /-- runbook.go:143-144, runner.go:63; `order` is the iteration order of the targets -/
  | start {book : Runbook} (h : parse dec basedir src = .ok book)
      (hm : Runner.capacity (limits book) ≤ proc.maxChan) (order : List Str)
      (ho : order.Perm (limits book).keys) :
      Reach dec basedir proc src (.running book (Runner.init order) { targets := book.targets })
  | act {book : Runbook} {st st' : Runner.St} {w w' : World}
      (h : Reach dec basedir proc src (.running book st w))
      (ha : Act proc book (st, w) (st', w')) :
      Reach dec basedir proc src (.running book st' w')
  | panic {book : Runbook} {st : Runner.St} {w : World}
      (h : Reach dec basedir proc src (.running book st w)) (hp : Panics book st w) :
      Reach dec basedir proc src .panicked

end Verif.Run
