import Verif.Sched.Model

/-!
# The tests of /repo/internal/dag and /repo/internal/runbook/scheduler, on the model
-/

namespace Verif.Tests
open Verif Verif.Dag

/-- The edges of a literal in the tests. -/
def lit (m : List (Str × List Str)) : GoMap Str (List Str) := m

/-- directed_test.go `TestNewDirectedGraph`. -/
example : newDirectedGraph (lit [(b!"foo", [b!"bar", b!"baz"]), (b!"bar", [b!"baz"]), (b!"baz", [b!"qux"])]) =
    .error (.invalidEdge b!"baz" b!"qux") := by decide +kernel

/-- directed_test.go `TestDirectedGraph`. -/
example :
    let g0 := addEdges [] b!"foo" [b!"bar", b!"baz"]
    newDirectedGraph [] = .ok [] ∧
    hasNode g0 b!"foo" = true ∧ hasNode g0 b!"bar" = true ∧ outDegree g0 b!"foo" = 2 ∧ outDegree g0 b!"bar" = 0 ∧
      outDegree g0 b!"baz" = 0 ∧
    ∃ g1, newDirectedGraph (lit [(b!"foo", [b!"baz"]), (b!"bar", []), (b!"baz", [b!"foo", b!"bar"])]) = .ok g1 ∧
      outDegree g1 b!"foo" = 1 ∧ outDegree g1 b!"bar" = 0 ∧ outDegree g1 b!"baz" = 2 ∧
    let g2 := addEdge g1 b!"foo" b!"bar"
    outDegree g2 b!"foo" = 2 ∧
    let g3 := removeEdge g2 b!"bar" b!"baz"
    outDegree g3 b!"bar" = 0 ∧ hasNode g3 b!"bar" = true ∧
    let g4 := addEdge g3 b!"qux" b!"quux"
    outDegree g4 b!"qux" = 1 ∧ outDegree g4 b!"quux" = 0 ∧ hasNode g4 b!"quux" = true ∧
    let g5 := removeNode g4 b!"baz"
    outDegree g5 b!"foo" = 1 ∧ hasNode g5 b!"baz" = false ∧
    let g6 := removeNode g5 b!"quux"
    outDegree g6 b!"qux" = 0 ∧ outDegree g6 b!"quux" = 0 ∧ hasNode g6 b!"quux" = false ∧
    let g7 := removeEdge g6 b!"corge" b!"grault"
    outDegree g7 b!"corge" = 0 ∧ outDegree g7 b!"grault" = 0 ∧ hasNode g7 b!"corge" = false ∧
      hasNode g7 b!"grault" = false ∧
    let g8 := removeNode g7 b!"garply"
    outDegree g8 b!"garply" = 0 ∧ hasNode g8 b!"garply" = false :=
  ⟨by decide +kernel, by decide +kernel, by decide +kernel, by decide +kernel, by decide +kernel, by decide +kernel,
    [(b!"foo", [b!"baz"]), (b!"bar", []), (b!"baz", [b!"foo", b!"bar"])], by decide +kernel⟩

/-- dependency_test.go `TestNewDependencyGraph`; the order of the cycle depends on the order of the names. -/
example : newDependencyGraph (lit [(b!"foo", [b!"bar"])]) = some (.error (.invalidEdge b!"foo" b!"bar")) ∧
    newDependencyGraph (lit [(b!"foo", [b!"bar"]), (b!"bar", [b!"foo"])]) =
      some (.error (.circular [b!"foo", b!"bar"])) := by decide +kernel

/-- The loop of dependency_test.go:53-60: what `Next` returns for each task, while tasks are pending. -/
def drain : Nat → DepGraph → List Str → List (Str × List Str)
  | 0, _, _ => []
  | _, _, [] => []
  | k + 1, g, n :: completed =>
    let r := g.next n
    (n, r.2) :: drain k r.1 (completed ++ r.2)

/-- dependency_test.go `TestDependencyGraph`, and that the test does not run on. -/
example : ∃ g, newDependencyGraph (lit [(b!"a", [b!"g"]), (b!"g", []), (b!"h", [b!"g", b!"p", b!"r"]), (b!"p", [b!"g"]),
      (b!"r", [])]) = some (.ok g) ∧ g.hasPending = true ∧
    drain 10 g [b!""] = [(b!"", [b!"g", b!"r"]), (b!"g", [b!"a", b!"p"]), (b!"r", []), (b!"a", []), (b!"p", [b!"h"]),
      (b!"h", [])] :=
  ⟨_, rfl, by decide +kernel⟩

/-- nodeset_test.go `TestNodeSet`. -/
example :
    NodeSet.size [] = 0 ∧ NodeSet.contains [] b!"foo" = false ∧ NodeSet.remove [] b!"bar" = [] ∧
    let s := NodeSet.add (NodeSet.add [] b!"foo") b!"bar"
    NodeSet.size s = 2 ∧ NodeSet.contains s b!"foo" = true ∧ NodeSet.contains s b!"bar" = true ∧
    let s' := NodeSet.remove s b!"bar"
    NodeSet.size s' = 1 ∧ NodeSet.contains s' b!"foo" = true ∧ NodeSet.contains s' b!"bar" = false := by decide +kernel

/-- tsort_test.go `acyclic`. -/
def acyclic : GoMap Str (List Str) := [
  (b!"a", [b!"b", b!"m", b!"u"]), (b!"b", [b!"o", b!"u"]), (b!"e", [b!"b", b!"l"]),
  (b!"g", [b!"k", b!"l", b!"m", b!"n", b!"o"]), (b!"i", [b!"k", b!"a", b!"r", b!"t"]), (b!"k", [b!"a", b!"b"]),
  (b!"l", [b!"b", b!"t"]), (b!"m", [b!"e", b!"r"]), (b!"n", [b!"a", b!"e", b!"i", b!"o", b!"u"]), (b!"o", [b!"r"]),
  (b!"r", [b!"t"]), (b!"t", []), (b!"u", [b!"o", b!"r"])]

/-- tsort_test.go `cyclic`. -/
def cyclic : GoMap Str (List Str) := [
  (b!"foo", [b!"bar", b!"baz"]), (b!"bar", []), (b!"baz", []), (b!"0", [b!"1"]), (b!"1", [b!"2"]), (b!"2", [b!"3"]),
  (b!"3", [b!"4"]), (b!"4", [b!"5"]), (b!"5", [b!"6"]), (b!"6", [b!"7"]), (b!"7", [b!"8"]), (b!"8", [b!"9"]),
  (b!"9", [b!"0"])]

/-- tsort_test.go `reversed`. -/
def reversed : GoMap Str (List Str) := [
  (b!"a", [b!"k", b!"i", b!"n", b!"g"]), (b!"b", [b!"k", b!"l", b!"m", b!"n"]), (b!"e", [b!"m", b!"n"]), (b!"g", []),
  (b!"i", [b!"n"]), (b!"k", [b!"i", b!"n"]), (b!"l", [b!"a", b!"e"]), (b!"m", [b!"a", b!"k", b!"g"]), (b!"n", [b!"g"]),
  (b!"o", [b!"k", b!"u"]), (b!"r", [b!"a", b!"e", b!"i", b!"o", b!"u"]), (b!"t", [b!"r"]), (b!"u", [b!"a", b!"b"])]

/-- tsort_test.go `unpredictable`. -/
def unpredictable : GoMap Str (List Str) := [
  (b!"a", []), (b!"b", []), (b!"c", [b!"h", b!"j"]), (b!"d", []), (b!"e", [b!"k"]), (b!"f", []), (b!"g", [b!"k", b!"h"]),
  (b!"h", [b!"i"]), (b!"i", []), (b!"j", []), (b!"k", [b!"b", b!"i", b!"j"]), (b!"l", []), (b!"m", [])]

/-- `NewDirectedGraph` and `TSort` in a row. -/
def sortOf (nodes : GoMap Str (List Str)) : Option TSortResult :=
  match newDirectedGraph nodes with
  | .error _ => none
  | .ok g => tsort g

/-- tsort_test.go `TestTSort`. -/
example :
    sortOf acyclic = some (.sorted [b!"t", b!"r", b!"o", b!"u", b!"b", b!"l", b!"e", b!"m", b!"a", b!"k", b!"i", b!"n", b!"g"]) ∧
    sortOf reversed = some (.sorted [b!"g", b!"n", b!"i", b!"k", b!"a", b!"m", b!"e", b!"l", b!"b", b!"u", b!"o", b!"r", b!"t"]) ∧
    sortOf unpredictable =
      some (.sorted [b!"a", b!"b", b!"i", b!"h", b!"j", b!"c", b!"d", b!"k", b!"e", b!"f", b!"g", b!"l", b!"m"]) := by
  decide +kernel

/-- tsort_test.go `TestTSort`, the cycle. -/
example : ∃ c, sortOf cyclic = some (.cyclic c) ∧
    ∀ n ∈ [b!"0", b!"1", b!"2", b!"3", b!"4", b!"5", b!"6", b!"7", b!"8", b!"9"], n ∈ c :=
  ⟨_, rfl, by decide +kernel⟩

/-! ## scheduler_test.go -/

/-- scheduler_test.go:51-55. -/
def targets : GoMap Str Int := [(b!"q1", 1), (b!"q2", 2), (b!"q3", 2)]

/-- scheduler_test.go:57-71. -/
def tasks : GoMap Str Sched.Task := [
  (b!"t01", ⟨b!"q1", []⟩), (b!"t02", ⟨b!"q1", []⟩), (b!"t03", ⟨b!"q1", []⟩), (b!"t04", ⟨b!"q2", []⟩),
  (b!"t05", ⟨b!"q2", []⟩), (b!"t06", ⟨b!"q2", []⟩), (b!"t07", ⟨b!"q3", [b!"t01", b!"t02"]⟩),
  (b!"t08", ⟨b!"q3", [b!"t03", b!"t04", b!"t07"]⟩), (b!"t09", ⟨b!"q1", [b!"t07"]⟩), (b!"t10", ⟨b!"q2", [b!"t07"]⟩),
  (b!"t11", ⟨b!"q3", [b!"t05", b!"t07"]⟩), (b!"t12", ⟨b!"q3", [b!"t06", b!"t07"]⟩), (b!"t13", ⟨b!"q2", [b!"t07"]⟩)]

/-- The loop of scheduler_test.go:128-137: what `Next` returns; `none` is `ErrNoPendingTasks`. -/
def nexts (s : Sched.Scheduler) : List Str → List (Str × Option (GoMap Str (List Str)))
  | [] => []
  | t :: ts =>
    let r := s.next t
    (t, r.2) :: nexts r.1 ts

/-- Two maps with the same entries. -/
def sameMap (a b : Option (GoMap Str (List Str))) : Bool :=
  match a, b with
  | none, none => true
  | some a, some b => decide (List.Perm a b)
  | _, _ => false

/-- What the calls returned, compared. -/
def sameAll : List (Str × Option (GoMap Str (List Str))) → List (Str × Option (GoMap Str (List Str))) → Bool
  | [], [] => true
  | (t, a) :: l, (t', b) :: l' => t == t' && sameMap a b && sameAll l l'
  | _, _ => false

/-- scheduler_test.go:86-127. -/
def expected : List (Str × Option (GoMap Str (List Str))) := [
  (b!"t01", some [(b!"q1", [b!"t02"])]), (b!"t02", some [(b!"q1", [b!"t03"]), (b!"q3", [b!"t07"])]), (b!"t03", some []),
  (b!"t04", some [(b!"q2", [b!"t06"])]), (b!"t05", some []), (b!"t06", some []),
  (b!"t07", some [(b!"q1", [b!"t09"]), (b!"q2", [b!"t10", b!"t13"]), (b!"q3", [b!"t08", b!"t11"])]),
  (b!"t08", some [(b!"q3", [b!"t12"])]), (b!"t09", none), (b!"t10", none), (b!"t11", none), (b!"t12", none),
  (b!"t13", none)]

/-- scheduler_test.go `TestScheduler`. -/
example : ∃ s ready, Sched.new targets tasks = some (.ok (s, ready)) ∧
    sameMap (some ready) (some [(b!"q1", [b!"t01"]), (b!"q2", [b!"t04", b!"t05"])]) = true ∧
    sameAll (nexts s (expected.map Prod.fst)) expected = true :=
  ⟨_, _, rfl, by decide +kernel, by decide +kernel⟩

/-- scheduler_test.go `TestDependencyCycle`. -/
example : ∃ e, Sched.new [(b!"q1", 1)] [(b!"t1", ⟨b!"q1", [b!"t2"]⟩), (b!"t2", ⟨b!"q1", [b!"t1"]⟩)] = some (.error e) :=
  ⟨_, rfl⟩

end Verif.Tests
