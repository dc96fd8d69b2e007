import Verif.Runner.Model

/-!
# What tasks write while they run

runner.go:177, runbook.go:31-43 and sh/exec.go:21-30: all targets of a run write to the same standard output, and a task writes while
`Handle` runs, piece by piece, not when it returns.  In between the other goroutines go on.

Simplification: nothing is written for a task after `Handle` has returned (a command that leaves a process running in the
background is not followed).
-/

namespace Verif.Runner
open Verif Sched

/-- What can be seen of a run: the events of the runner, and what is written to standard output. -/
inductive Item where
  | event (e : Event)
  /-- while task `t` is executed on target `q`, `text` is written -/
  | wrote (q t text : Str)
deriving DecidableEq

/-- A state of the runner, and everything that has been seen. -/
structure Shown where
  st : St
  log : List Item := []

section
variable (targets : GoMap Str Int) (tasks : GoMap Str Task)

/-- One action. -/
inductive ShownStep : Shown → Shown → Prop
  /-- an action of the runner (`Model.lean`) -/
  | act {s : Shown} {st' : St} (new : List Event) (h : Step targets tasks s.st st') (hn : st'.trace = s.st.trace ++ new) :
      ShownStep s ⟨st', s.log ++ new.map .event⟩
  /-- runner.go:177, sh/exec.go:26, demo/tasks.go:15: a task writes -/
  | write {s : Shown} (q t text : Str) (hr : s.st.tgt q = .running t) :
      ShownStep s ⟨s.st, s.log ++ [.wrote q t text]⟩

/-- What can be seen of a run at some moment. -/
inductive ShownReach : Shown → Prop
  | init (order : List Str) (h : order.Perm targets.keys) : ShownReach ⟨init order, []⟩
  | step {s s' : Shown} (h : ShownReach s) (hs : ShownStep targets tasks s s') : ShownReach s'

end

/-- What has been written, piece by piece: the task and the text. -/
def pieces (log : List Item) : List (Str × Str) :=
  log.filterMap fun
    | .wrote _ t text => some (t, text)
    | .event _ => none

/-- Standard output. -/
def screen (log : List Item) : Str := (pieces log).flatMap Prod.snd

/-- What one task has written. -/
def written (log : List Item) (t : Str) : Str := ((pieces log).filter (·.1 = t)).flatMap Prod.snd

end Verif.Runner
