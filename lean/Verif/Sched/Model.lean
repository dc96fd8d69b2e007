import Verif.Dag.Model

/-!
# Model of `/repo/internal/runbook/scheduler/scheduler.go`

Go's `int` is modelled by `Int` (no overflow: the counters are bounded by the number of tasks and
the concurrency limits).
-/

namespace Verif.Sched
open Verif Dag

/-- types/types.go:35-40 `Task`, the fields the scheduler reads. -/
structure Task where
  target : Str
  after : List Str
deriving DecidableEq, Repr

/-- scheduler.go:13-19 `Scheduler`. -/
structure Scheduler where
  deps : DepGraph
  tasks : GoMap Str Str
  pending : GoMap Str (List Str)
  targetCap : GoMap Str Int
  targetLen : GoMap Str Int
deriving DecidableEq, Repr

/-- `s.targetLen[q]`, `s.targetCap[q]`: 0 for an absent key, as in Go. -/
def getInt (m : GoMap Str Int) (q : Str) : Int := (m.get? q).getD 0

/-- `s.pending[q]`: nil for an absent key, as in Go. -/
def getQ (m : GoMap Str (List Str)) (q : Str) : List Str := (m.get? q).getD []

/-- `s.tasks[t]`: "" for an absent key, as in Go. -/
def targetOf (tasks : GoMap Str Str) (t : Str) : Str := (tasks.get? t).getD []

/-- scheduler.go:72-95: the loop of `buildReady` over the entries of `s.pending`; returns the new
entries, the new `targetLen` and the result map.  Entries are visited once each and only the
visited entry is assigned, so the new map is built entry by entry. -/
def buildReadyLoop (cap : GoMap Str Int) :
    List (Str × List Str) → GoMap Str Int →
      GoMap Str (List Str) × GoMap Str Int × GoMap Str (List Str)
  | [], len => ([], len, [])
  | (qid, tasks) :: rest, len =>
    if tasks.length < 1 then
      let (p, l, r) := buildReadyLoop cap rest len
      ((qid, tasks) :: p, l, r)
    else
      let targetLen := getInt len qid
      let n := getInt cap qid - targetLen
      if n < 1 then
        let (p, l, r) := buildReadyLoop cap rest len
        ((qid, tasks) :: p, l, r)
      else
        let k := if n > tasks.length then tasks.length else n.toNat
        let (p, l, r) := buildReadyLoop cap rest (len.set qid (targetLen + k))
        ((qid, tasks.drop k) :: p, l, (qid, tasks.take k) :: r)

/-- scheduler.go:69-98 `buildReady`. -/
def Scheduler.buildReady (s : Scheduler) : Scheduler × GoMap Str (List Str) :=
  let (p, l, r) := buildReadyLoop s.targetCap s.pending s.targetLen
  ({ s with pending := p, targetLen := l }, r)

/-- scheduler.go:100-107 `fillPending`. -/
def fillPending (tasks : GoMap Str Str) : List Str → GoMap Str (List Str) → GoMap Str (List Str)
  | [], pending => pending
  | tid :: rest, pending =>
    let qid := targetOf tasks tid
    fillPending tasks rest (pending.set qid (getQ pending qid ++ [tid]))

/-- scheduler.go:113-118: deletes empty entries until a non-empty one is met. -/
def dropEmpty : List (Str × List Str) → Bool × GoMap Str (List Str)
  | [] => (true, [])
  | (qid, tasks) :: rest =>
    if tasks.length > 0 then (false, (qid, tasks) :: rest) else dropEmpty rest

/-- scheduler.go:109-120 `noPendingTasks`: the result and the updated `s.pending`. -/
def Scheduler.noPendingTasks (s : Scheduler) : Bool × GoMap Str (List Str) :=
  if s.deps.hasPending then (false, s.pending) else dropEmpty s.pending

/-- scheduler.go:22-53 `New`.  `targets` gives each target's `ConcurrencyLimit()`.  The copies of
the Go maps made by the loops at lines 31-44 keep the entries.  `none` would mean that the
dependency analysis does not terminate. -/
def new (targets : GoMap Str Int) (tasks : GoMap Str Task) :
    Option (Except DagError (Scheduler × GoMap Str (List Str))) :=
  match newDependencyGraph (tasks.map (fun p => (p.1, p.2.after))) with
  | none => none
  | some (.error e) => some (.error e)
  | some (.ok deps) =>
    let tgt := tasks.map (fun p => (p.1, p.2.target))
    let (deps1, rdy) := deps.next []
    some (.ok (Scheduler.buildReady
      { deps := deps1, tasks := tgt, pending := fillPending tgt rdy [],
        targetCap := targets, targetLen := targets.map (fun p => (p.1, 0)) }))

/-- scheduler.go:56-67 `Next`: new state, and the ready map or (`none`) `ErrNoPendingTasks`. -/
def Scheduler.next (s : Scheduler) (completed : Str) : Scheduler × Option (GoMap Str (List Str)) :=
  match s.noPendingTasks with
  | (true, p) => ({ s with pending := p }, none)
  | (false, p) =>
    let qid := targetOf s.tasks completed
    let len := s.targetLen.set qid (getInt s.targetLen qid - 1)
    let (deps1, rdy) := s.deps.next completed
    let (s', r) := Scheduler.buildReady
      { s with deps := deps1, targetLen := len, pending := fillPending s.tasks rdy p }
    (s', some r)

end Verif.Sched
