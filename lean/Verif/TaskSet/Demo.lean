import Verif.TaskSet.Run
import Verif.TaskSet.Parse
import Verif.Demo.Model

/-!
# Model of `/repo/internal/taskset/demo`: the tasks of a demo target, run by `RunTasks`

The goroutine of each task, step by step, on what the tasks share: the mutex, the string and the
writer. Any goroutine may take a step whenever it is not blocked. Clocks are not modelled: a `sleep`
ends at some point. The writer does not fail. The line with its id that `RunTasks` itself prints to
the standard output for each task it starts (base.go:43) is not part of `stdout`.
-/

namespace Verif.TaskSet.Demo
open Verif TaskSet

/-- What the goroutines of a target share: demo/demo.go:35-40. -/
structure Shared where
  /-- demo.go:35 `sync.Mutex` -/
  locked : Bool := false
  /-- demo.go:40 -/
  string : Str
  /-- demo.go:37: what has been written -/
  stdout : Str := []
deriving DecidableEq, Repr

/-- The errors of tasks: demo/fail.go:21 `ErrFail`, and demo/demo.go:84. -/
inductive Err where
  | fail
  | invalidTask
deriving DecidableEq, Repr

/-- Where the goroutine of a task is. -/
inductive Thread where
  /-- demo/demo.go:79: about to call `exec` -/
  | start
  /-- it has locked the mutex -/
  | locked
  /-- it has read the string -/
  | loaded (s : Str)
  /-- it has written its result -/
  | stored
  /-- `exec` has returned -/
  | done (e : Option Err)
deriving DecidableEq, Repr

/-- A task with its id (types/types.go `TaskBatch`). -/
abbrev Job := Str × Kind

/-- The tasks that lock the mutex. -/
def Locks : Kind → Prop
  | .echo | .rev | .rot13 => True
  | _ => False

/-- A step of the goroutine of a task of kind `k`. -/
inductive Exec : Kind → Shared → Thread → Shared → Thread → Prop
  /-- demo/echo.go:22, rev.go:18, rot13.go:18: `t.Lock()` blocks while the mutex is locked -/
  | lock (k : Kind) (m : Shared) (hk : Locks k) (h : m.locked = false) :
      Exec k m .start { m with locked := true } .locked
  /-- echo.go:23, rev.go:19, rot13.go:19: `t.String` is read -/
  | load (k : Kind) (m : Shared) (hk : Locks k) : Exec k m .locked m (.loaded m.string)
  /-- echo.go:23: `fmt.Fprintln` -/
  | print (m : Shared) (s : Str) :
      Exec .echo m (.loaded s) { m with stdout := m.stdout ++ s ++ [10] } .stored
  /-- rev.go:20-25 (an index out of range would be a panic: no step) -/
  | rev (m : Shared) (s : Str) (t : Demo.Target) (h : Demo.rev ⟨[], s⟩ = some t) :
      Exec .rev m (.loaded s) { m with string := t.string } .stored
  /-- rot13.go:20-32 -/
  | rot13 (m : Shared) (s : Str) :
      Exec .rot13 m (.loaded s) { m with string := (Demo.rot13 ⟨[], s⟩).string } .stored
  /-- echo.go:24-25, rev.go:26-27, rot13.go:33-34: `t.Unlock()`, and `return nil` -/
  | unlock (k : Kind) (m : Shared) (hk : Locks k) :
      Exec k m .stored { m with locked := false } (.done none)
  /-- fail.go:23-25 -/
  | fail (m : Shared) : Exec .fail m .start m (.done (some .fail))
  /-- sleep.go:25-30 -/
  | sleep (n : Int) (m : Shared) : Exec (.sleep n) m .start m (.done none)
  /-- demo.go:82-86: tasks of other targets -/
  | pg (sql : Str) (m : Shared) : Exec (.pg sql) m .start m (.done (some .invalidTask))
  /-- demo.go:82-86 -/
  | sh (args : List Str) (m : Shared) : Exec (.sh args) m .start m (.done (some .invalidTask))

/-- `RunTasks`, what is shared, and the goroutine of each task that is executing. -/
structure Sys where
  run : St Job (Option Err) := {}
  shared : Shared
  threads : List (Job × Thread) := []

/-- A step of anyone but the client submitting. The steps of `RunTasks` that start a task and that end
one are steps of a task's goroutine, too. -/
inductive Act (cap : Nat) : Sys → Sys → Prop
  /-- demo.go:77-78: `fn` starts a goroutine -/
  | spawn (s : Sys) (r : St Job (Option Err)) (j : Job) (h : Move cap s.run r)
      (hs : r.started = s.run.started ++ [j]) :
      Act cap s { s with run := r, threads := s.threads ++ [(j, .start)] }
  /-- a step of `exec` -/
  | exec (s : Sys) (a b : List (Job × Thread)) (j : Job) (t t' : Thread) (m : Shared)
      (h : s.threads = a ++ (j, t) :: b) (hx : Exec j.2 s.shared t m t') :
      Act cap s { s with shared := m, threads := a ++ (j, t') :: b }
  /-- demo.go:79-81: `exec` has returned, and the result is there to be sent -/
  | finish (s : Sys) (a b : List (Job × Thread)) (j : Job) (e : Option Err)
      (r : St Job (Option Err)) (ht : s.threads = a ++ (j, .done e) :: b) (h : Move cap s.run r)
      (hs : r.ran = s.run.ran ++ [(j, e)]) :
      Act cap s { s with run := r, threads := a ++ b }
  /-- the other steps of `RunTasks` and the client receiving -/
  | other (s : Sys) (r : St Job (Option Err)) (h : Move cap s.run r)
      (hs : r.started = s.run.started) (hr : r.ran = s.run.ran) : Act cap s { s with run := r }

/-- A step of anyone. -/
inductive Step (cap : Nat) : Sys → Sys → Prop
  | act {s s' : Sys} (h : Act cap s s') : Step cap s s'
  | submit {s : Sys} {r : St Job (Option Err)} (h : Submit cap s.run r) : Step cap s { s with run := r }

/-- Any number of steps. -/
inductive Steps (cap : Nat) : Sys → Sys → Prop
  | refl (s : Sys) : Steps cap s s
  | tail {s s' s'' : Sys} : Steps cap s s' → Step cap s' s'' → Steps cap s s''

/-- demo.go:76-89 `Start` on a target: base.go:31 makes a channel of size `MaxConcurrency`, which
panics if this is negative. `none` is the panic; otherwise the size of the channels and the first
state. (A size beyond the memory panics, too; sizes are not limited here.) -/
def start (maxConcurrency : Int) (string : Str) : Option (Nat × Sys) :=
  if maxConcurrency < 0 then none
  else some (maxConcurrency.toNat, { shared := { string := string } })

/-- sleep.go:18-23 `Sleep.Ready`, on `Seconds`. -/
def sleepReady (seconds : Int) : Int := if seconds < 1 then 1 else seconds

/-- sleep.go:25-30 `Sleep.exec`: how long it pauses, in nanoseconds; `time.Duration(x.Seconds) *
time.Second` is a product of 64-bit integers, and `time.Sleep` returns at once unless it is positive. -/
def sleepPause (seconds : Int) : Nat := (Int64.ofInt seconds * 1000000000).toInt.toNat

/-- Nothing can happen unless the client submits something. -/
def Quiet (cap : Nat) (s : Sys) : Prop := ∀ s', ¬ Act cap s s'

/-- Exactly `n` steps other than submissions. -/
inductive Acts (cap : Nat) : Nat → Sys → Sys → Prop
  | refl (s : Sys) : Acts cap 0 s s
  | tail {n : Nat} {s s' s'' : Sys} : Acts cap n s s' → Act cap s' s'' → Acts cap (n + 1) s s''

end Verif.TaskSet.Demo
