import Mathlib.Data.List.Perm.Subperm

/-!
# Model of `/repo/internal/taskset/base/base.go`: `RunTasks`

A transition system of the client, the goroutine `RunTasks` starts, and one goroutine per task, which
is what the `fn` of every target (taskset/demo/demo.go:76-88, taskset/pg/pg.go:47-59,
taskset/sh/sh.go:47-59) starts: it executes the task and then sends the result to the relay channel.
Every interleaving is an execution.
-/

namespace Verif.TaskSet

variable {τ ε : Type}

/-- Where the goroutine of `RunTasks` is. -/
inductive Pc (τ ε : Type)
  /-- base.go:39: waiting in `select` -/
  | select
  /-- base.go:42-46: `rest` is still to be started -/
  | spawn (rest : List τ)
  /-- base.go:51: about to send `r` -/
  | forward (r : τ × ε)
  /-- base.go:56: waiting in `range relay` -/
  | shutdown
  /-- base.go:57: about to send `r` -/
  | forwardLast (r : τ × ε)
  /-- base.go:59 -/
  | check
  /-- the goroutine has returned -/
  | done

/-- The state of the channels and goroutines. The last four fields record the history: what the
client has sent, the executions begun, the executions with their outcome, and what the client has
received. -/
structure St (τ ε : Type) where
  queue : List (List τ) := []
  queueClosed : Bool := false
  results : List (τ × ε) := []
  resultsClosed : Bool := false
  relayClosed : Bool := false
  pc : Pc τ ε := .select
  running : Int := 0
  /-- goroutines executing their task -/
  executing : List τ := []
  /-- goroutines sending their result to the relay channel -/
  finished : List (τ × ε) := []
  panicked : Bool := false
  submitted : List τ := []
  started : List τ := []
  ran : List (τ × ε) := []
  received : List (τ × ε) := []

/-- What the client does: send a batch to the queue channel or close it. A send on a buffered channel
needs room (base.go:31); a send may also meet the receiver waiting in `select` directly, which is the
only way if `maxConcurrency` is 0. -/
inductive Submit (cap : Nat) : St τ ε → St τ ε → Prop
  | send (s : St τ ε) (batch : List τ) (ho : s.queueClosed = false) (hr : s.queue.length < cap) :
      Submit cap s { s with queue := s.queue ++ [batch], submitted := s.submitted ++ batch }
  | sendDirect (s : St τ ε) (batch : List τ) (ho : s.queueClosed = false) (hq : s.queue = [])
      (hp : s.pc = .select) :
      Submit cap s { s with pc := .spawn batch, submitted := s.submitted ++ batch }
  | close (s : St τ ε) (ho : s.queueClosed = false) :
      Submit cap s { s with queueClosed := true }

/-- Everything else: the goroutines' steps, and the client receiving a result. The outcome of an
execution is arbitrary. -/
inductive Move (cap : Nat) : St τ ε → St τ ε → Prop
  /-- the client receives from the results channel -/
  | recv (s : St τ ε) (r : τ × ε) (rest : List (τ × ε)) (h : s.results = r :: rest) :
      Move cap s { s with results := rest, received := s.received ++ [r] }
  /-- the client meets the sender on base.go:51; base.go:52 -/
  | recvDirect (s : St τ ε) (r : τ × ε) (h : s.results = []) (hp : s.pc = .forward r) :
      Move cap s { s with pc := .select, running := s.running - 1, received := s.received ++ [r] }
  /-- the client meets the sender on base.go:57; base.go:58 -/
  | recvDirectLast (s : St τ ε) (r : τ × ε) (h : s.results = []) (hp : s.pc = .forwardLast r) :
      Move cap s { s with pc := .check, running := s.running - 1, received := s.received ++ [r] }
  /-- base.go:40-41 -/
  | take (s : St τ ε) (batch : List τ) (rest : List (List τ)) (hp : s.pc = .select)
      (hq : s.queue = batch :: rest) : Move cap s { s with pc := .spawn batch, queue := rest }
  /-- base.go:42-46, map iteration in any order -/
  | spawn (s : St τ ε) (a b : List τ) (t : τ) (hp : s.pc = .spawn (a ++ t :: b)) :
      Move cap s { s with
        pc := .spawn (a ++ b), executing := s.executing ++ [t], started := s.started ++ [t],
        running := s.running + 1 }
  /-- base.go:38: the end of the loop over the batch -/
  | spawned (s : St τ ε) (hp : s.pc = .spawn []) : Move cap s { s with pc := .select }
  /-- a task's goroutine ends its execution -/
  | finish (s : St τ ε) (a b : List τ) (t : τ) (e : ε) (h : s.executing = a ++ t :: b) :
      Move cap s { s with
        executing := a ++ b, finished := s.finished ++ [(t, e)], ran := s.ran ++ [(t, e)] }
  /-- base.go:50: the relay channel is unbuffered -/
  | relay (s : St τ ε) (a b : List (τ × ε)) (r : τ × ε) (hp : s.pc = .select)
      (h : s.finished = a ++ r :: b) : Move cap s { s with pc := .forward r, finished := a ++ b }
  /-- base.go:51-52: there is room in the results channel (base.go:32) -/
  | put (s : St τ ε) (r : τ × ε) (hp : s.pc = .forward r) (hr : s.results.length < cap) :
      Move cap s { s with pc := .select, results := s.results ++ [r], running := s.running - 1 }
  /-- base.go:40, 47-48: the queue is closed and empty -/
  | notice (s : St τ ε) (hp : s.pc = .select) (hq : s.queue = []) (hc : s.queueClosed = true) :
      Move cap s { s with pc := .shutdown }
  /-- base.go:56 -/
  | relayLast (s : St τ ε) (a b : List (τ × ε)) (r : τ × ε) (hp : s.pc = .shutdown)
      (ho : s.relayClosed = false) (h : s.finished = a ++ r :: b) :
      Move cap s { s with pc := .forwardLast r, finished := a ++ b }
  /-- base.go:57-58 -/
  | putLast (s : St τ ε) (r : τ × ε) (hp : s.pc = .forwardLast r) (hr : s.results.length < cap) :
      Move cap s { s with pc := .check, results := s.results ++ [r], running := s.running - 1 }
  /-- base.go:59-62: the last result closes both channels; closing a closed channel panics -/
  | last (s : St τ ε) (hp : s.pc = .check) (h : s.running < 1) :
      Move cap s { s with
        pc := .shutdown, relayClosed := true, resultsClosed := true,
        panicked := s.panicked || s.relayClosed || s.resultsClosed }
  /-- base.go:59: more results to come -/
  | more (s : St τ ε) (hp : s.pc = .check) (h : ¬ s.running < 1) :
      Move cap s { s with pc := .shutdown }
  /-- base.go:56: the range over a closed channel ends -/
  | ends (s : St τ ε) (hp : s.pc = .shutdown) (h : s.relayClosed = true) :
      Move cap s { s with pc := .done }
  /-- a send to the closed relay channel panics -/
  | panic (s : St τ ε) (h : s.finished ≠ []) (hc : s.relayClosed = true)
      (hp : s.panicked = false) : Move cap s { s with panicked := true }

/-- One step of anyone. -/
def Step (cap : Nat) (s s' : St τ ε) : Prop := Submit cap s s' ∨ Move cap s s'

/-- Any number of steps. -/
inductive Steps (cap : Nat) : St τ ε → St τ ε → Prop
  | refl (s : St τ ε) : Steps cap s s
  | tail {s s' s'' : St τ ε} : Steps cap s s' → Step cap s' s'' → Steps cap s s''

/-- Reachable from the state right after the call of `RunTasks`. -/
def Reachable (cap : Nat) (s : St τ ε) : Prop := Steps cap {} s

/-- Exactly `n` steps other than submissions. -/
inductive Moves (cap : Nat) : Nat → St τ ε → St τ ε → Prop
  | refl (s : St τ ε) : Moves cap 0 s s
  | tail {n : Nat} {s s' s'' : St τ ε} : Moves cap n s s' → Move cap s' s'' → Moves cap (n + 1) s s''

/-- Nothing can happen unless the client submits something: all goroutines are blocked and there is
nothing to receive. -/
def Quiet (cap : Nat) (s : St τ ε) : Prop := ∀ s', ¬ Move cap s s'

end Verif.TaskSet
