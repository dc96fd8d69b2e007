import Verif.Sched.Protocol
import Mathlib.Logic.Function.Basic
import Mathlib.Logic.Relation

/-!
# Model of `/repo/internal/runbook/runner.go`

The four kinds of goroutines (main, scheduler, router, one per target) and the channels between
them, as a transition relation: every rule of `Step` is one atomic action of one goroutine (or one
rendezvous on an unbuffered channel), so the reachable states are those of all interleavings.
`Start` and `Handle` may succeed or fail at every call (nondeterministically).

Simplifications, all noted at the rule concerned:
* log calls are omitted here (those that name a task or a target are in `Log.lean`); `Handle`'s error is identified by the task that returned it;
* the loop closing the per-target channels (runner.go:153-155) is one step; closing does not
  block and a target sees only its own channel;
* `target.Stop()` and `wg.Done()` (runner.go:183-184) are one step;
* channels of capacity 0 (no targets at all) have no rendezvous rule; without targets no task can
  exist in a parsed runbook, so nothing is ever sent.
-/

namespace Verif.Runner
open Verif Dag Sched

/-- Observable events, recorded in the history variable `trace`. -/
inductive Event where
  /-- `target.Start()` returned nil. -/
  | started (q : Str)
  /-- `target.Start()` returned an error. -/
  | startFailed (q : Str)
  /-- `target.Handle` was called on target `q` for task `t`. -/
  | handleStart (q t : Str)
  /-- `target.Handle` returned; `ok` iff the error was nil. -/
  | handleEnd (q t : Str) (ok : Bool)
  /-- `target.Stop()` was called. -/
  | stopped (q : Str)
deriving DecidableEq, Repr

/-- The error `run` returns: that of a `Start` or of a `Handle`. -/
inductive RunErr where
  | start (q : Str)
  | task (t : Str)
deriving DecidableEq, Repr

/-- runner.go:94-123: where the scheduler goroutine is. -/
inductive SchedPC where
  /-- before line 98 -/
  | start
  /-- lines 103-116: `todo` is what remains to be sent on `ready`; then it receives from `done` -/
  | sending (s : Scheduler) (todo : List (Str × Str))
  /-- after line 95's deferred `close(readyChan)` -/
  | stopped

/-- runner.go:145-159: where the router goroutine is. -/
inductive RouterPC where
  | notStarted
  /-- line 147, receiving -/
  | recv
  /-- line 150, sending the message on the target's channel -/
  | hold (q t : Str)
  /-- line 156, after closing the target channels -/
  | waitWg
  /-- after line 157, `ended` is closed -/
  | stopped
deriving DecidableEq

/-- runner.go:172-185: where a target's goroutine is. -/
inductive TgtPC where
  | notStarted
  /-- line 173, receiving -/
  | idle
  /-- line 177, inside `Handle` -/
  | running (t : Str)
  /-- line 178, sending on `ended` -/
  | reporting (t : Str) (ok : Bool)
  /-- line 183 -/
  | stopping
  | stopped
deriving DecidableEq

/-- runner.go:63-91, 126-162: where the main goroutine is. -/
inductive MainPC where
  /-- runner.go:129: the targets not yet started, in iteration order -/
  | starting (rest : List Str)
  /-- runner.go:69 about to return the error of a failed `Start` -/
  | failing (q : Str)
  /-- line 73, receiving from `ended` -/
  | loop1
  /-- line 80, sending on `done` -/
  | sendDone (t : Str)
  /-- line 85, draining `ended`; the error seen, if any -/
  | loop2 (err : Option Str)
  | returned (err : Option RunErr)
deriving DecidableEq

/-- The state of a run.  `out`, `completed`, `dropped` and `trace` are history variables: no rule
looks at them. -/
structure St where
  sched : SchedPC
  ready : List (Str × Str)
  router : RouterPC
  tgt : Str → TgtPC
  ended : List (Str × Bool)
  main : MainPC
  done : List Str
  doneClosed : Bool
  /-- pairs the scheduler handed out -/
  out : List (Str × Str)
  /-- completions accepted by `Scheduler.Next` -/
  completed : List Str
  /-- completions that went nowhere: refused by `Next`, failed, or drained by the second loop -/
  dropped : List Str
  trace : List Event

section
variable (targets : GoMap Str Int) (tasks : GoMap Str Task)

/-- runner.go:37-41: channel capacity, twice the sum of the concurrency limits. -/
def capacity : Int := 2 * (targets.map Prod.snd).sum

/-- runner.go:36-54, 63: the state when `run` starts; `order` is the iteration order of
`r.targets` in `startTargets`. -/
def init (order : List Str) : St :=
  { sched := .start, ready := [], router := .notStarted, tgt := fun _ => .notStarted, ended := [],
    main := .starting order, done := [], doneClosed := false, out := [], completed := [],
    dropped := [], trace := [] }

/-- One atomic action. -/
inductive Step : St → St → Prop
  /-- runner.go:98-102: `scheduler.New` fails (or cannot return). -/
  | schedNewErr (st : St) (e : DagError) (h : st.sched = .start)
      (hn : new targets tasks = some (.error e)) : Step st { st with sched := .stopped }
  /-- runner.go:98, 103: `scheduler.New` succeeds; `r'` is the iteration order of the result. -/
  | schedNew (st : St) (s : Scheduler) (r r' : GoMap Str (List Str)) (h : st.sched = .start)
      (hn : new targets tasks = some (.ok (s, r))) (hp : r'.Perm r) :
      Step st { st with sched := .sending s (flat r'), out := st.out ++ flat r }
  /-- runner.go:107-112: send one ready message. -/
  | schedSend (st : St) (s : Scheduler) (p : Str × Str) (todo : List (Str × Str))
      (h : st.sched = .sending s (p :: todo)) (hc : (st.ready.length : Int) < capacity targets) :
      Step st { st with sched := .sending s todo, ready := st.ready ++ [p] }
  /-- runner.go:116-117, 103: receive a completion, `Next` accepts it. -/
  | schedNext (st : St) (s s' : Scheduler) (c : Str) (rest : List Str)
      (r r' : GoMap Str (List Str)) (h : st.sched = .sending s []) (hd : st.done = c :: rest)
      (hn : s.next c = (s', some r)) (hp : r'.Perm r) :
      Step st { st with sched := .sending s' (flat r'), done := rest,
                        out := st.out ++ flat r, completed := st.completed ++ [c] }
  /-- runner.go:116-117, 100-101: receive a completion, `Next` returns `ErrNoPendingTasks`. -/
  | schedRefused (st : St) (s s' : Scheduler) (c : Str) (rest : List Str)
      (h : st.sched = .sending s []) (hd : st.done = c :: rest) (hn : s.next c = (s', none)) :
      Step st { st with sched := .stopped, done := rest, dropped := st.dropped ++ [c] }
  /-- runner.go:116, 118-119: `done` is closed and empty. -/
  | schedClosed (st : St) (s : Scheduler) (h : st.sched = .sending s []) (hd : st.done = [])
      (hc : st.doneClosed = true) : Step st { st with sched := .stopped }
  /-- runner.go:131-139: a target starts. -/
  | targetStart (st : St) (q : Str) (rest : List Str) (h : st.main = .starting (q :: rest)) :
      Step st { st with main := .starting rest, tgt := Function.update st.tgt q .idle,
                        trace := st.trace ++ [.started q] }
  /-- runner.go:131-134, 145, 161: a target fails to start; the router is started all the same. -/
  | targetStartFail (st : St) (q : Str) (rest : List Str) (h : st.main = .starting (q :: rest)) :
      Step st { st with main := .failing q, router := .recv,
                        trace := st.trace ++ [.startFailed q] }
  /-- runner.go:68-70, 64: `run` returns the error; the deferred `closeDone` runs. -/
  | returnStartErr (st : St) (q : Str) (h : st.main = .failing q) :
      Step st { st with main := .returned (some (.start q)), doneClosed := true }
  /-- runner.go:145, 161: all targets started, the router is started. -/
  | targetsStarted (st : St) (h : st.main = .starting []) :
      Step st { st with main := .loop1, router := .recv }
  /-- runner.go:147: the router receives a ready message. -/
  | routerRecv (st : St) (q t : Str) (rest : List (Str × Str)) (h : st.router = .recv)
      (hr : st.ready = (q, t) :: rest) : Step st { st with router := .hold q t, ready := rest }
  /-- runner.go:150 and 173, 177: rendezvous; the target starts handling. -/
  | routerSend (st : St) (q t : Str) (h : st.router = .hold q t) (ht : st.tgt q = .idle) :
      Step st { st with router := .recv, tgt := Function.update st.tgt q (.running t),
                        trace := st.trace ++ [.handleStart q t] }
  /-- runner.go:147, 153-155: `ready` is closed and empty; all target channels are closed. -/
  | routerClosed (st : St) (h : st.router = .recv) (hr : st.ready = []) (hs : st.sched = .stopped) :
      Step st { st with router := .waitWg }
  /-- runner.go:156-157: every started target is done; `ended` is closed. -/
  | routerDone (st : St) (h : st.router = .waitWg)
      (ht : ∀ q, st.tgt q = .notStarted ∨ st.tgt q = .stopped) :
      Step st { st with router := .stopped }
  /-- runner.go:177: `Handle` returns. -/
  | handleEnd (st : St) (q t : Str) (ok : Bool) (h : st.tgt q = .running t) :
      Step st { st with tgt := Function.update st.tgt q (.reporting t ok),
                        trace := st.trace ++ [.handleEnd q t ok] }
  /-- runner.go:178-181: send on `ended`; leave the loop if there was an error. -/
  | report (st : St) (q t : Str) (ok : Bool) (h : st.tgt q = .reporting t ok)
      (hc : (st.ended.length : Int) < capacity targets) :
      Step st { st with tgt := Function.update st.tgt q (if ok then .idle else .stopping),
                        ended := st.ended ++ [(t, ok)] }
  /-- runner.go:173: the target's channel is closed. -/
  | targetClosed (st : St) (q : Str) (h : st.tgt q = .idle)
      (hr : st.router = .waitWg ∨ st.router = .stopped) :
      Step st { st with tgt := Function.update st.tgt q .stopping }
  /-- runner.go:183-184. -/
  | targetStop (st : St) (q : Str) (h : st.tgt q = .stopping) :
      Step st { st with tgt := Function.update st.tgt q .stopped,
                        trace := st.trace ++ [.stopped q] }
  /-- runner.go:73-80: a task ended without error. -/
  | mainOk (st : St) (t : Str) (rest : List (Str × Bool)) (h : st.main = .loop1)
      (he : st.ended = (t, true) :: rest) : Step st { st with main := .sendDone t, ended := rest }
  /-- runner.go:80: send on `done`. -/
  | mainSend (st : St) (t : Str) (h : st.main = .sendDone t)
      (hc : (st.done.length : Int) < capacity targets) :
      Step st { st with main := .loop1, done := st.done ++ [t] }
  /-- runner.go:75-78: a task ended with an error. -/
  | mainErr (st : St) (t : Str) (rest : List (Str × Bool)) (h : st.main = .loop1)
      (he : st.ended = (t, false) :: rest) :
      Step st { st with main := .loop2 (some t), ended := rest, doneClosed := true,
                        dropped := st.dropped ++ [t] }
  /-- runner.go:73: `ended` is closed and empty. -/
  | mainEnd1 (st : St) (h : st.main = .loop1) (he : st.ended = []) (hr : st.router = .stopped) :
      Step st { st with main := .loop2 none }
  /-- runner.go:85-87: drain. -/
  | mainDrain (st : St) (e : Option Str) (t : Str) (ok : Bool) (rest : List (Str × Bool))
      (h : st.main = .loop2 e) (he : st.ended = (t, ok) :: rest) :
      Step st { st with ended := rest, dropped := st.dropped ++ [t] }
  /-- runner.go:85, 90, 64: `ended` is closed and empty; return; `closeDone` runs. -/
  | mainReturn (st : St) (e : Option Str) (h : st.main = .loop2 e) (he : st.ended = [])
      (hr : st.router = .stopped) :
      Step st { st with main := .returned (e.map .task), doneClosed := true }

/-- The states reachable by some interleaving from some iteration order of the targets. -/
inductive Reach : St → Prop
  | init (order : List Str) (h : order.Perm targets.keys) : Reach (init order)
  | step {st st' : St} (h : Reach st) (hs : Step targets tasks st st') : Reach st'

end

end Verif.Runner
