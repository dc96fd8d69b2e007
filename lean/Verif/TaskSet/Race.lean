import Verif.TaskSet.Demo

/-!
# Model of `/repo/internal/taskset/demo`: what the goroutines of a demo target do to their memory

The same goroutines as in `Demo.lean`, with the operations on shared memory and on the mutex that each
step performs. The goroutine of a task is known by the number of tasks started before it. The memory is
the text of the target and its writer. Not in it: what a goroutine has for itself (`running`, the copy of
the text being reversed), and what nobody writes once `Start` has been called (the writer's address, the
settings of a task).
-/

namespace Verif.TaskSet.Demo
open Verif TaskSet

/-- The goroutines: the one that calls `Start`, the one of base/base.go:34, and those of demo.go:78. -/
inductive Gor where
  | client
  | loop
  | task (n : Nat)
deriving DecidableEq, Repr

/-- Memory that goroutines share. -/
inductive Loc where
  /-- demo.go:40 `String` -/
  | string
  /-- demo.go:37: what `stdout` writes to -/
  | writer
deriving DecidableEq, Repr

/-- What a goroutine does. -/
inductive Op where
  | go (g : Gor)
  | read (l : Loc)
  | write (l : Loc)
  | lock
  | unlock
deriving DecidableEq, Repr

/-- An event. -/
structure Ev where
  by_ : Gor
  op : Op
deriving DecidableEq, Repr

/-- The steps of `Exec`, with the events of the goroutine `g`. -/
inductive Does (g : Gor) : Kind → Shared → Thread → Shared → Thread → List Ev → Prop
  /-- demo/echo.go:22, rev.go:18, rot13.go:18 -/
  | lock (k : Kind) (m : Shared) (hk : Locks k) (h : m.locked = false) :
      Does g k m .start { m with locked := true } .locked [⟨g, .lock⟩]
  /-- echo.go:23, rev.go:19, rot13.go:19 -/
  | load (k : Kind) (m : Shared) (hk : Locks k) :
      Does g k m .locked m (.loaded m.string) [⟨g, .read .string⟩]
  /-- echo.go:23 -/
  | print (m : Shared) (s : Str) :
      Does g .echo m (.loaded s) { m with stdout := m.stdout ++ s ++ [10] } .stored [⟨g, .write .writer⟩]
  /-- rev.go:20-25 -/
  | rev (m : Shared) (s : Str) (t : Demo.Target) (h : Demo.rev ⟨[], s⟩ = some t) :
      Does g .rev m (.loaded s) { m with string := t.string } .stored [⟨g, .write .string⟩]
  /-- rot13.go:20-32 -/
  | rot13 (m : Shared) (s : Str) :
      Does g .rot13 m (.loaded s) { m with string := (Demo.rot13 ⟨[], s⟩).string } .stored
        [⟨g, .write .string⟩]
  /-- echo.go:24-25, rev.go:26-27, rot13.go:33-34 -/
  | unlock (k : Kind) (m : Shared) (hk : Locks k) :
      Does g k m .stored { m with locked := false } (.done none) [⟨g, .unlock⟩]
  /-- fail.go:23-25 -/
  | fail (m : Shared) : Does g .fail m .start m (.done (some .fail)) []
  /-- sleep.go:25-30 -/
  | sleep (n : Int) (m : Shared) : Does g (.sleep n) m .start m (.done none) []
  /-- demo.go:82-86 -/
  | pg (sql : Str) (m : Shared) : Does g (.pg sql) m .start m (.done (some .invalidTask)) []
  /-- demo.go:82-86 -/
  | sh (args : List Str) (m : Shared) : Does g (.sh args) m .start m (.done (some .invalidTask)) []

/-- What has happened when `Start` returns: the target was filled in, its writer made (demo.go:37-40,
parser.go), and base.go:34. -/
def begun : List Ev := [⟨.client, .write .string⟩, ⟨.client, .write .writer⟩, ⟨.client, .go .loop⟩]

/-- A target that has been started, the numbers of the goroutines in `threads`, in the same order, and
all events so far. -/
inductive Watched (cap : Nat) (s0 : Sys) : Sys → List Nat → List Ev → Prop
  | start : Watched cap s0 s0 [] begun
  /-- base.go:44, demo.go:77-78 -/
  | spawn {s : Sys} {ns : List Nat} {tr : List Ev} (w : Watched cap s0 s ns tr)
      (r : St Job (Option Err)) (j : Job) (h : Move cap s.run r)
      (hs : r.started = s.run.started ++ [j]) :
      Watched cap s0 { s with run := r, threads := s.threads ++ [(j, .start)] }
        (ns ++ [s.run.started.length]) (tr ++ [⟨.loop, .go (.task s.run.started.length)⟩])
  /-- demo.go:79-80 -/
  | exec {s : Sys} {ns : List Nat} {tr : List Ev} (w : Watched cap s0 s ns tr)
      (a b : List (Job × Thread)) (j : Job) (t t' : Thread) (m : Shared) (p q : List Nat) (n : Nat)
      (evs : List Ev) (h : s.threads = a ++ (j, t) :: b) (hn : ns = p ++ n :: q)
      (hl : p.length = a.length) (hx : Does (.task n) j.2 s.shared t m t' evs) :
      Watched cap s0 { s with shared := m, threads := a ++ (j, t') :: b } ns (tr ++ evs)
  /-- demo.go:79-86 -/
  | finish {s : Sys} {ns : List Nat} {tr : List Ev} (w : Watched cap s0 s ns tr)
      (a b : List (Job × Thread)) (j : Job) (e : Option Err) (r : St Job (Option Err))
      (p q : List Nat) (n : Nat) (ht : s.threads = a ++ (j, .done e) :: b) (hn : ns = p ++ n :: q)
      (hl : p.length = a.length) (h : Move cap s.run r) (hs : r.ran = s.run.ran ++ [(j, e)]) :
      Watched cap s0 { s with run := r, threads := a ++ b } (p ++ q) tr
  /-- base.go:39-63: the other steps -/
  | other {s : Sys} {ns : List Nat} {tr : List Ev} (w : Watched cap s0 s ns tr)
      (r : St Job (Option Err)) (h : Move cap s.run r) (hs : r.started = s.run.started)
      (hr : r.ran = s.run.ran) : Watched cap s0 { s with run := r } ns tr
  /-- the client submits -/
  | submit {s : Sys} {ns : List Nat} {tr : List Ev} (w : Watched cap s0 s ns tr)
      (r : St Job (Option Err)) (h : Submit cap s.run r) : Watched cap s0 { s with run := r } ns tr

/-- Specification (Go memory model): event `i` happens before event `j`. -/
inductive HB (tr : List Ev) : Nat → Nat → Prop
  /-- in the same goroutine -/
  | seq {i j : Nat} {a b : Ev} (hi : tr[i]? = some a) (hj : tr[j]? = some b) (h : i < j)
      (hg : a.by_ = b.by_) : HB tr i j
  /-- a goroutine is started, and does something -/
  | go {i j : Nat} {a b : Ev} (hi : tr[i]? = some a) (hj : tr[j]? = some b) (h : i < j)
      (hg : a.op = .go b.by_) : HB tr i j
  /-- the mutex is unlocked, and locked later -/
  | mutex {i j : Nat} {a b : Ev} (hi : tr[i]? = some a) (hj : tr[j]? = some b) (h : i < j)
      (ha : a.op = .unlock) (hb : b.op = .lock) : HB tr i j
  | trans {i j k : Nat} (h : HB tr i j) (h' : HB tr j k) : HB tr i k

/-- Two operations on the same memory, at least one of which writes. -/
def Conflict (a b : Op) : Prop :=
  ∃ l, (a = .write l ∧ b = .write l) ∨ (a = .write l ∧ b = .read l) ∨ (a = .read l ∧ b = .write l)

/-- Specification: there is no data race. -/
def RaceFree (tr : List Ev) : Prop :=
  ∀ i j a b, tr[i]? = some a → tr[j]? = some b → i < j → Conflict a.op b.op → HB tr i j

end Verif.TaskSet.Demo
