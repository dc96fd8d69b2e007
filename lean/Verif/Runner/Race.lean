import Verif.Runner.Props

/-!
# Memory the goroutines of a run share (`/repo/internal/runbook/runner.go`)

Every action of `Runner.Step` together with the memory its goroutine reads and writes, the goroutines it starts and the
messages it passes on. Values that are sent by copy (`done` carries strings, whose sending counts as a message all the same), channels themselves and the `WaitGroup`
are no shared memory; nor are loggers and standard output, which are zap and an `*os.File`, both made for being used by
several goroutines. Closing a channel and `Wait` would order still more than is said here.
-/

namespace Verif.Runner
open Verif Dag Sched

/-- The goroutines of a run. -/
inductive Gor where
  | main
  /-- runner.go:94 -/
  | scheduler
  /-- runner.go:145 -/
  | router
  /-- runner.go:172 -/
  | target (q : Str)
deriving DecidableEq

/-- Memory that more than one goroutine can get at. -/
inductive Loc where
  /-- the fields of `runner` but `done` (runner.go:24-34), with the maps `targets` and `tasks` and the tasks in it -/
  | runner
  /-- the field `done`, which `closeDone` sets to nil (runner.go:58-61) -/
  | done
  /-- the variable `s` and what it points to (runner.go:98) -/
  | sched
  /-- the map `channels` (runner.go:128) -/
  | channels
  /-- what is written in the file about a target: `Concurrency`, `Host`, ... (pg/pg.go:23-32, sh/sh.go:29-30) -/
  | settings (q : Str)
  /-- the fields `Start`, tasks and `Stop` set: `conn`, `environ`, `String` (pg/pg.go:21, sh/sh.go:25, demo/demo.go:22) -/
  | state (q : Str)
  /-- the `readyMsg` of a task (runner.go:12-17) -/
  | readyMsg (t : Str)
  /-- the `endedMsg` of a task (runner.go:19-22) -/
  | endedMsg (t : Str)
deriving DecidableEq

/-- Messages passed on by way of a channel. -/
inductive Msg where
  | ready (t : Str)
  | routed (t : Str)
  | ended (t : Str)
  | done (t : Str)
deriving DecidableEq

/-- What a goroutine does that matters. -/
inductive Op where
  /-- a `go` statement -/
  | go (g : Gor)
  | read (l : Loc)
  | write (l : Loc)
  | send (c : Msg)
  | recv (c : Msg)
  /-- `Handle` is called for a task -/
  | begins (t : Str)
  /-- `Handle` returns, without an error or with one -/
  | ends (t : Str) (ok : Bool)
deriving DecidableEq

/-- Who does what. -/
structure Ev where
  by_ : Gor
  op : Op
deriving DecidableEq

section
variable (targets : GoMap Str Int) (tasks : GoMap Str Task)

/-- runner.go:98, scheduler.go:22-49: the scheduler is made, which reads the limits of all targets and all tasks. -/
def created : List Ev :=
  ⟨.scheduler, .read .runner⟩ :: ⟨.scheduler, .write .sched⟩ ::
    targets.keys.map fun q => ⟨.scheduler, .read (.settings q)⟩

/-- What is done in an action: the rules of `Step`, and the events. -/
inductive Does : St → St → List Ev → Prop
  /-- runner.go:98-102 -/
  | schedNewErr (st : St) (e : DagError) (h : st.sched = .start)
      (hn : new targets tasks = some (.error e)) :
      Does st { st with sched := .stopped }
        (created targets)
  /-- runner.go:98, 103 -/
  | schedNew (st : St) (s : Scheduler) (r r' : GoMap Str (List Str)) (h : st.sched = .start)
      (hn : new targets tasks = some (.ok (s, r))) (hp : r'.Perm r) :
      Does st { st with sched := .sending s (flat r'), out := st.out ++ flat r }
        (created targets)
  /-- runner.go:107-112 -/
  | schedSend (st : St) (s : Scheduler) (p : Str × Str) (todo : List (Str × Str))
      (h : st.sched = .sending s (p :: todo)) (hc : (st.ready.length : Int) < capacity targets) :
      Does st { st with sched := .sending s todo, ready := st.ready ++ [p] }
        [⟨.scheduler, .read .runner⟩, ⟨.scheduler, .write (.readyMsg p.2)⟩,
         ⟨.scheduler, .send (.ready p.2)⟩]
  /-- runner.go:116-117, 103 -/
  | schedNext (st : St) (s s' : Scheduler) (c : Str) (rest : List Str)
      (r r' : GoMap Str (List Str)) (h : st.sched = .sending s []) (hd : st.done = c :: rest)
      (hn : s.next c = (s', some r)) (hp : r'.Perm r) :
      Does st { st with sched := .sending s' (flat r'), done := rest, out := st.out ++ flat r, completed := st.completed ++ [c] }
        [⟨.scheduler, .recv (.done c)⟩, ⟨.scheduler, .write .sched⟩]
  /-- runner.go:116-117, 100-101 -/
  | schedRefused (st : St) (s s' : Scheduler) (c : Str) (rest : List Str)
      (h : st.sched = .sending s []) (hd : st.done = c :: rest) (hn : s.next c = (s', none)) :
      Does st { st with sched := .stopped, done := rest, dropped := st.dropped ++ [c] }
        [⟨.scheduler, .recv (.done c)⟩, ⟨.scheduler, .write .sched⟩]
  /-- runner.go:116, 118-119 -/
  | schedClosed (st : St) (s : Scheduler) (h : st.sched = .sending s []) (hd : st.done = [])
      (hc : st.doneClosed = true) :
      Does st { st with sched := .stopped }
        []
  /-- runner.go:131-139 -/
  | targetStart (st : St) (q : Str) (rest : List Str) (h : st.main = .starting (q :: rest)) :
      Does st { st with main := .starting rest, tgt := Function.update st.tgt q .idle, trace := st.trace ++ [.started q] }
        [⟨.main, .read .runner⟩, ⟨.main, .read (.settings q)⟩, ⟨.main, .write (.state q)⟩,
         ⟨.main, .go (.target q)⟩, ⟨.main, .write .channels⟩]
  /-- runner.go:131-134, 145, 161; the state may have been written -/
  | targetStartFail (st : St) (q : Str) (rest : List Str) (h : st.main = .starting (q :: rest)) :
      Does st { st with main := .failing q, router := .recv, trace := st.trace ++ [.startFailed q] }
        [⟨.main, .read .runner⟩, ⟨.main, .read (.settings q)⟩, ⟨.main, .write (.state q)⟩,
         ⟨.main, .go .router⟩]
  /-- runner.go:68-70, 64 -/
  | returnStartErr (st : St) (q : Str) (h : st.main = .failing q) :
      Does st { st with main := .returned (some (.start q)), doneClosed := true }
        [⟨.main, .read .done⟩, ⟨.main, .write .done⟩]
  /-- runner.go:145, 161 -/
  | targetsStarted (st : St) (h : st.main = .starting []) :
      Does st { st with main := .loop1, router := .recv }
        [⟨.main, .go .router⟩]
  /-- runner.go:147 -/
  | routerRecv (st : St) (q t : Str) (rest : List (Str × Str)) (h : st.router = .recv)
      (hr : st.ready = (q, t) :: rest) :
      Does st { st with router := .hold q t, ready := rest }
        [⟨.router, .read .runner⟩, ⟨.router, .recv (.ready t)⟩, ⟨.router, .read (.readyMsg t)⟩]
  /-- runner.go:150 and 173, 177, and what `Handle` does first -/
  | routerSend (st : St) (q t : Str) (h : st.router = .hold q t) (ht : st.tgt q = .idle) :
      Does st { st with router := .recv, tgt := Function.update st.tgt q (.running t), trace := st.trace ++ [.handleStart q t] }
        [⟨.router, .read (.readyMsg t)⟩, ⟨.router, .read .channels⟩, ⟨.router, .send (.routed t)⟩,
         ⟨.target q, .recv (.routed t)⟩, ⟨.target q, .read (.readyMsg t)⟩,
         ⟨.target q, .begins t⟩, ⟨.target q, .read (.settings q)⟩, ⟨.target q, .write (.state q)⟩]
  /-- runner.go:147, 153-155 -/
  | routerClosed (st : St) (h : st.router = .recv) (hr : st.ready = []) (hs : st.sched = .stopped) :
      Does st { st with router := .waitWg }
        [⟨.router, .read .runner⟩, ⟨.router, .read .channels⟩]
  /-- runner.go:156-157 -/
  | routerDone (st : St) (h : st.router = .waitWg)
      (ht : ∀ q, st.tgt q = .notStarted ∨ st.tgt q = .stopped) :
      Does st { st with router := .stopped }
        [⟨.router, .read .runner⟩]
  /-- runner.go:177, and what `Handle` does to the end -/
  | handleEnd (st : St) (q t : Str) (ok : Bool) (h : st.tgt q = .running t) :
      Does st { st with tgt := Function.update st.tgt q (.reporting t ok), trace := st.trace ++ [.handleEnd q t ok] }
        [⟨.target q, .read (.settings q)⟩, ⟨.target q, .write (.state q)⟩, ⟨.target q, .ends t ok⟩]
  /-- runner.go:178-181 -/
  | report (st : St) (q t : Str) (ok : Bool) (h : st.tgt q = .reporting t ok)
      (hc : (st.ended.length : Int) < capacity targets) :
      Does st { st with tgt := Function.update st.tgt q (if ok then .idle else .stopping), ended := st.ended ++ [(t, ok)] }
        [⟨.target q, .read (.readyMsg t)⟩, ⟨.target q, .write (.endedMsg t)⟩,
         ⟨.target q, .send (.ended t)⟩]
  /-- runner.go:173 -/
  | targetClosed (st : St) (q : Str) (h : st.tgt q = .idle)
      (hr : st.router = .waitWg ∨ st.router = .stopped) :
      Does st { st with tgt := Function.update st.tgt q .stopping }
        []
  /-- runner.go:183-184 -/
  | targetStop (st : St) (q : Str) (h : st.tgt q = .stopping) :
      Does st { st with tgt := Function.update st.tgt q .stopped, trace := st.trace ++ [.stopped q] }
        [⟨.target q, .write (.state q)⟩]
  /-- runner.go:73-80 -/
  | mainOk (st : St) (t : Str) (rest : List (Str × Bool)) (h : st.main = .loop1)
      (he : st.ended = (t, true) :: rest) :
      Does st { st with main := .sendDone t, ended := rest }
        [⟨.main, .recv (.ended t)⟩, ⟨.main, .read (.endedMsg t)⟩]
  /-- runner.go:80 -/
  | mainSend (st : St) (t : Str) (h : st.main = .sendDone t)
      (hc : (st.done.length : Int) < capacity targets) :
      Does st { st with main := .loop1, done := st.done ++ [t] }
        [⟨.main, .read .done⟩, ⟨.main, .read (.endedMsg t)⟩, ⟨.main, .send (.done t)⟩]
  /-- runner.go:75-78 -/
  | mainErr (st : St) (t : Str) (rest : List (Str × Bool)) (h : st.main = .loop1)
      (he : st.ended = (t, false) :: rest) :
      Does st { st with main := .loop2 (some t), ended := rest, doneClosed := true, dropped := st.dropped ++ [t] }
        [⟨.main, .recv (.ended t)⟩, ⟨.main, .read (.endedMsg t)⟩, ⟨.main, .read .done⟩,
         ⟨.main, .write .done⟩]
  /-- runner.go:73 -/
  | mainEnd1 (st : St) (h : st.main = .loop1) (he : st.ended = []) (hr : st.router = .stopped) :
      Does st { st with main := .loop2 none }
        []
  /-- runner.go:85-87 -/
  | mainDrain (st : St) (e : Option Str) (t : Str) (ok : Bool) (rest : List (Str × Bool))
      (h : st.main = .loop2 e) (he : st.ended = (t, ok) :: rest) :
      Does st { st with ended := rest, dropped := st.dropped ++ [t] }
        [⟨.main, .recv (.ended t)⟩, ⟨.main, .read (.endedMsg t)⟩]
  /-- runner.go:85, 90, 64 -/
  | mainReturn (st : St) (e : Option Str) (h : st.main = .loop2 e) (he : st.ended = [])
      (hr : st.router = .stopped) :
      Does st { st with main := .returned (e.map .task), doneClosed := true }
        [⟨.main, .read .done⟩, ⟨.main, .write .done⟩]

/-- runner.go:43-53, 94-123: what has been done when the goroutine of the scheduler is started. -/
def begun : List Ev := [⟨.main, .write .runner⟩, ⟨.main, .write .done⟩, ⟨.main, .go .scheduler⟩]

/-- The states a run can be in, with what has been done so far. -/
inductive Watched : St → List Ev → Prop
  | init (order : List Str) (h : order.Perm targets.keys) : Watched (init order) begun
  | step {st st' : St} {tr evs : List Ev} (h : Watched st tr) (hd : Does targets tasks st st' evs) :
      Watched st' (tr ++ evs)

end

/-- The actions are those of `Step`. -/
theorem does_iff (targets : GoMap Str Int) (tasks : GoMap Str Task) (st st' : St) :
    Step targets tasks st st' ↔ ∃ evs, Does targets tasks st st' evs := by
  constructor
  · intro h
    cases h
    case schedClosed s h hd hc => exact ⟨_, .schedClosed st s h hd hc⟩
    all_goals exact ⟨_, by constructor <;> assumption⟩
  · rintro ⟨evs, h⟩
    cases h
    case schedClosed s h hd hc => exact .schedClosed st s h hd hc
    all_goals constructor <;> assumption

/-- Specification (Go memory model): event `i` happens before event `j`. -/
inductive HB (tr : List Ev) : Nat → Nat → Prop
  /-- in the same goroutine -/
  | seq {i j : Nat} {a b : Ev} (hi : tr[i]? = some a) (hj : tr[j]? = some b) (h : i < j) (hg : a.by_ = b.by_) : HB tr i j
  /-- a goroutine is started, and does something -/
  | go {i j : Nat} {a b : Ev} (hi : tr[i]? = some a) (hj : tr[j]? = some b) (h : i < j) (hg : a.op = .go b.by_) : HB tr i j
  /-- a message is sent, and received -/
  | msg {i j : Nat} {a b : Ev} {c : Msg} (hi : tr[i]? = some a) (hj : tr[j]? = some b) (h : i < j)
      (ha : a.op = .send c) (hb : b.op = .recv c) : HB tr i j
  | trans {i j k : Nat} (h : HB tr i j) (h' : HB tr j k) : HB tr i k

/-- Two operations on the same memory, at least one of which writes. -/
def Conflict (a b : Op) : Prop :=
  ∃ l, (a = .write l ∧ b = .write l) ∨ (a = .write l ∧ b = .read l) ∨ (a = .read l ∧ b = .write l)

/-- Specification: there is no data race. -/
def RaceFree (tr : List Ev) : Prop :=
  ∀ i j a b, tr[i]? = some a → tr[j]? = some b → i < j → Conflict a.op b.op → HB tr i j

end Verif.Runner
