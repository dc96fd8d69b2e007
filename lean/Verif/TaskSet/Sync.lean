import Verif.TaskSet.Run

/-!
# Model of `/repo/internal/taskset/base/base.go`: what the goroutines of `RunTasks` tell each other

The same steps as in `Run.lean`, with the goroutines they start and the messages they pass on, and with
marks for what a client knows of a task: that it was submitted, begins, ends, and that its result is
got. A goroutine of a task is known by the number of tasks started before it.
-/

namespace Verif.TaskSet.Sync
open Verif TaskSet

variable {τ ε : Type}

/-- The goroutines: the one that calls `RunTasks`, the one of base.go:34, and those that `fn` starts
(base.go:44). -/
inductive Gor where
  | client
  | loop
  | task (n : Nat)
deriving DecidableEq, Repr

/-- The channels: base.go:31, 35 and 32. -/
inductive Chan where
  | queue
  | relay
  | results
deriving DecidableEq, Repr

/-- What a goroutine does. -/
inductive Op (τ ε : Type) where
  | go (g : Gor)
  | send (c : Chan)
  | recv (c : Chan)
  /-- the client makes a batch to be sent -/
  | submits (batch : List τ)
  /-- the goroutine of a task begins to execute it -/
  | begins (t : τ)
  /-- the goroutine of a task has executed it -/
  | ends (t : τ) (e : ε)
  /-- the client has got a result -/
  | gets (t : τ) (e : ε)

/-- An event. -/
structure Ev (τ ε : Type) where
  by_ : Gor
  op : Op τ ε

/-- Is it a message sent to this channel? -/
def Op.sends (c : Chan) : Op τ ε → Bool
  | .send c' => c = c'
  | _ => false

/-- Is it a message received from this channel? -/
def Op.recvs (c : Chan) : Op τ ε → Bool
  | .recv c' => c = c'
  | _ => false

/-- How many messages were sent to the channel. -/
def nSends (c : Chan) (tr : List (Ev τ ε)) : Nat := tr.countP fun e => e.op.sends c

/-- How many messages were received from the channel. -/
def nRecvs (c : Chan) (tr : List (Ev τ ε)) : Nat := tr.countP fun e => e.op.recvs c

/-- The states of `Run.lean`, the numbers of the goroutines in `executing` and in `finished`, in the
same order, and all events so far. -/
inductive Watched (cap : Nat) : St τ ε → List Nat → List Nat → List (Ev τ ε) → Prop
  /-- base.go:34 -/
  | start : Watched cap {} [] [] [⟨.client, .go .loop⟩]
  /-- the client, with room in the queue (base.go:31) -/
  | send {s xs fs tr} (w : Watched cap s xs fs tr) (batch : List τ) (ho : s.queueClosed = false)
      (hr : s.queue.length < cap) :
      Watched cap { s with queue := s.queue ++ [batch], submitted := s.submitted ++ batch } xs fs
        (tr ++ [⟨.client, .submits batch⟩, ⟨.client, .send .queue⟩])
  /-- the client meets the receiver on base.go:40 -/
  | sendDirect {s xs fs tr} (w : Watched cap s xs fs tr) (batch : List τ) (ho : s.queueClosed = false)
      (hq : s.queue = []) (hp : s.pc = .select) :
      Watched cap { s with pc := .spawn batch, submitted := s.submitted ++ batch } xs fs
        (tr ++ [⟨.client, .submits batch⟩, ⟨.client, .send .queue⟩, ⟨.loop, .recv .queue⟩])
  /-- the client closes the queue -/
  | close {s xs fs tr} (w : Watched cap s xs fs tr) (ho : s.queueClosed = false) :
      Watched cap { s with queueClosed := true } xs fs tr
  /-- the client receives from the results channel -/
  | recv {s xs fs tr} (w : Watched cap s xs fs tr) (r : τ × ε) (rest : List (τ × ε))
      (h : s.results = r :: rest) :
      Watched cap { s with results := rest, received := s.received ++ [r] } xs fs
        (tr ++ [⟨.client, .recv .results⟩, ⟨.client, .gets r.1 r.2⟩])
  /-- the client meets the sender on base.go:51 -/
  | recvDirect {s xs fs tr} (w : Watched cap s xs fs tr) (r : τ × ε) (h : s.results = [])
      (hp : s.pc = .forward r) :
      Watched cap { s with pc := .select, running := s.running - 1, received := s.received ++ [r] } xs fs
        (tr ++ [⟨.loop, .send .results⟩, ⟨.client, .recv .results⟩, ⟨.client, .gets r.1 r.2⟩])
  /-- the client meets the sender on base.go:57 -/
  | recvDirectLast {s xs fs tr} (w : Watched cap s xs fs tr) (r : τ × ε) (h : s.results = [])
      (hp : s.pc = .forwardLast r) :
      Watched cap { s with pc := .check, running := s.running - 1, received := s.received ++ [r] } xs fs
        (tr ++ [⟨.loop, .send .results⟩, ⟨.client, .recv .results⟩, ⟨.client, .gets r.1 r.2⟩])
  /-- base.go:40-41 -/
  | take {s xs fs tr} (w : Watched cap s xs fs tr) (batch : List τ) (rest : List (List τ))
      (hp : s.pc = .select) (hq : s.queue = batch :: rest) :
      Watched cap { s with pc := .spawn batch, queue := rest } xs fs (tr ++ [⟨.loop, .recv .queue⟩])
  /-- base.go:42-46; taskset/demo/demo.go:78, pg/pg.go:49, sh/sh.go:49 -/
  | spawn {s xs fs tr} (w : Watched cap s xs fs tr) (a b : List τ) (t : τ)
      (hp : s.pc = .spawn (a ++ t :: b)) :
      Watched cap { s with
        pc := .spawn (a ++ b), executing := s.executing ++ [t], started := s.started ++ [t],
        running := s.running + 1 } (xs ++ [s.started.length]) fs
        (tr ++ [⟨.loop, .go (.task s.started.length)⟩, ⟨.task s.started.length, .begins t⟩])
  /-- base.go:38 -/
  | spawned {s xs fs tr} (w : Watched cap s xs fs tr) (hp : s.pc = .spawn []) :
      Watched cap { s with pc := .select } xs fs tr
  /-- a task's goroutine ends its execution -/
  | finish {s fs tr} {xa xb : List Nat} {n : Nat} (w : Watched cap s (xa ++ n :: xb) fs tr) (a b : List τ)
      (t : τ) (e : ε) (h : s.executing = a ++ t :: b) (hl : xa.length = a.length) :
      Watched cap { s with
        executing := a ++ b, finished := s.finished ++ [(t, e)], ran := s.ran ++ [(t, e)] }
        (xa ++ xb) (fs ++ [n]) (tr ++ [⟨.task n, .ends t e⟩])
  /-- base.go:50; demo/demo.go:80-86, pg/pg.go:51-57, sh/sh.go:51-57 -/
  | relay {s xs tr} {fa fb : List Nat} {n : Nat} (w : Watched cap s xs (fa ++ n :: fb) tr)
      (a b : List (τ × ε)) (r : τ × ε) (hp : s.pc = .select) (h : s.finished = a ++ r :: b)
      (hl : fa.length = a.length) :
      Watched cap { s with pc := .forward r, finished := a ++ b } xs (fa ++ fb)
        (tr ++ [⟨.task n, .send .relay⟩, ⟨.loop, .recv .relay⟩])
  /-- base.go:51-52 -/
  | put {s xs fs tr} (w : Watched cap s xs fs tr) (r : τ × ε) (hp : s.pc = .forward r)
      (hr : s.results.length < cap) :
      Watched cap { s with pc := .select, results := s.results ++ [r], running := s.running - 1 } xs fs
        (tr ++ [⟨.loop, .send .results⟩])
  /-- base.go:40, 47-48 -/
  | notice {s xs fs tr} (w : Watched cap s xs fs tr) (hp : s.pc = .select) (hq : s.queue = [])
      (hc : s.queueClosed = true) : Watched cap { s with pc := .shutdown } xs fs tr
  /-- base.go:56 -/
  | relayLast {s xs tr} {fa fb : List Nat} {n : Nat} (w : Watched cap s xs (fa ++ n :: fb) tr)
      (a b : List (τ × ε)) (r : τ × ε) (hp : s.pc = .shutdown) (ho : s.relayClosed = false)
      (h : s.finished = a ++ r :: b) (hl : fa.length = a.length) :
      Watched cap { s with pc := .forwardLast r, finished := a ++ b } xs (fa ++ fb)
        (tr ++ [⟨.task n, .send .relay⟩, ⟨.loop, .recv .relay⟩])
  /-- base.go:57-58 -/
  | putLast {s xs fs tr} (w : Watched cap s xs fs tr) (r : τ × ε) (hp : s.pc = .forwardLast r)
      (hr : s.results.length < cap) :
      Watched cap { s with pc := .check, results := s.results ++ [r], running := s.running - 1 } xs fs
        (tr ++ [⟨.loop, .send .results⟩])
  /-- base.go:59-62 -/
  | last {s xs fs tr} (w : Watched cap s xs fs tr) (hp : s.pc = .check) (h : s.running < 1) :
      Watched cap { s with
        pc := .shutdown, relayClosed := true, resultsClosed := true,
        panicked := s.panicked || s.relayClosed || s.resultsClosed } xs fs tr
  /-- base.go:59 -/
  | more {s xs fs tr} (w : Watched cap s xs fs tr) (hp : s.pc = .check) (h : ¬ s.running < 1) :
      Watched cap { s with pc := .shutdown } xs fs tr
  /-- base.go:56 -/
  | ends {s xs fs tr} (w : Watched cap s xs fs tr) (hp : s.pc = .shutdown) (h : s.relayClosed = true) :
      Watched cap { s with pc := .done } xs fs tr
  /-- a send to the closed relay channel -/
  | panic {s xs fs tr} (w : Watched cap s xs fs tr) (h : s.finished ≠ []) (hc : s.relayClosed = true)
      (hp : s.panicked = false) : Watched cap { s with panicked := true } xs fs tr

/-- Specification (Go memory model): event `i` happens before event `j`. -/
inductive HB (tr : List (Ev τ ε)) : Nat → Nat → Prop
  /-- in the same goroutine -/
  | seq {i j : Nat} {a b : Ev τ ε} (hi : tr[i]? = some a) (hj : tr[j]? = some b) (h : i < j)
      (hg : a.by_ = b.by_) : HB tr i j
  /-- a goroutine is started, and does something -/
  | go {i j : Nat} {a b : Ev τ ε} (hi : tr[i]? = some a) (hj : tr[j]? = some b) (h : i < j)
      (hg : a.op = .go b.by_) : HB tr i j
  /-- a message is sent, and received: as many were sent before it as were received before it -/
  | msg {i j : Nat} {a b : Ev τ ε} {c : Chan} (hi : tr[i]? = some a) (hj : tr[j]? = some b) (h : i < j)
      (ha : a.op = .send c) (hb : b.op = .recv c) (hn : nSends c (tr.take i) = nRecvs c (tr.take j)) :
      HB tr i j
  | trans {i j k : Nat} (h : HB tr i j) (h' : HB tr j k) : HB tr i k

end Verif.TaskSet.Sync
