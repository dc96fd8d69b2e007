import Verif.Base.GoMap

/-!
# Model of `/repo/internal/dag`

Every definition cites the Go lines it models.
-/

namespace Verif.Dag
open Verif

/-- nodeset.go:4 `type NodeSet map[string]struct{}`: the keys, in some iteration order. -/
abbrev NodeSet := List Str

/-- nodeset.go:7-9 `Add`. -/
def NodeSet.add (s : NodeSet) (n : Str) : NodeSet := if n ∈ s then s else s ++ [n]

/-- nodeset.go:12-14 `Remove`. -/
def NodeSet.remove (s : NodeSet) (n : Str) : NodeSet := s.filter (fun m => m ≠ n)

/-- nodeset.go:17-20 `Contains`. -/
def NodeSet.contains (s : NodeSet) (n : Str) : Bool := decide (n ∈ s)

/-- nodeset.go:23-25 `Size`. -/
def NodeSet.size (s : NodeSet) : Nat := s.length

/-- Reading a `map[string]NodeSet` at an absent key gives Go's nil map, which reads as the empty
set and on which `delete` is a no-op. -/
def getSet (m : GoMap Str NodeSet) (k : Str) : NodeSet := (m.get? k).getD []

/-- errors.go:13-16 and errors.go:5-7: the two error types of the package. -/
inductive DagError where
  | invalidEdge (node edge : Str)
  | circular (cycle : List Str)
deriving DecidableEq, Repr

/-- directed.go:4 `type DirectedGraph map[string]NodeSet`. -/
abbrev DirectedGraph := GoMap Str NodeSet

/-- directed.go:10-17: the inner loop of `NewDirectedGraph`, collecting the edges of node `n`. -/
def buildSet (nodes : GoMap Str (List Str)) (n : Str) :
    List Str → NodeSet → Except DagError NodeSet
  | [], set => .ok set
  | m :: ms, set =>
    if nodes.has m then buildSet nodes n ms (NodeSet.add set m) else .error (.invalidEdge n m)

/-- directed.go:9-19: the outer loop of `NewDirectedGraph` over the remaining entries.
`nodes[n]` is the value of the entry being visited. -/
def buildGraph (nodes : GoMap Str (List Str)) :
    List (Str × List Str) → DirectedGraph → Except DagError DirectedGraph
  | [], g => .ok g
  | (n, es) :: rest, g =>
    match buildSet nodes n es [] with
    | .error e => .error e
    | .ok set => buildGraph nodes rest (g.set n set)

/-- directed.go:7-21 `NewDirectedGraph`. -/
def newDirectedGraph (nodes : GoMap Str (List Str)) : Except DagError DirectedGraph :=
  buildGraph nodes nodes []

/-- directed.go:24-34 `AddEdge`. -/
def addEdge (g : DirectedGraph) (node edge : Str) : DirectedGraph :=
  let g1 := match g.get? node with
    | some set => g.set node (NodeSet.add set edge)
    | none => g.set node [edge]
  if g1.has edge then g1 else g1.set edge []

/-- directed.go:37-41 `AddEdges`. -/
def addEdges (g : DirectedGraph) (node : Str) : List Str → DirectedGraph
  | [] => g
  | e :: es => addEdges (addEdge g node e) node es

/-- directed.go:44-48 `HasNode`. -/
def hasNode (g : DirectedGraph) (node : Str) : Bool := g.has node

/-- directed.go:51-54 `RemoveEdge`; deleting from the nil set of an absent node is a no-op. -/
def removeEdge (g : DirectedGraph) (node edge : Str) : DirectedGraph :=
  match g.get? node with
  | some set => g.set node (NodeSet.remove set edge)
  | none => g

/-- directed.go:59-61: the loop of `RemoveNode` over the keys. -/
def removeInbound (node : Str) : List Str → DirectedGraph → DirectedGraph
  | [], g => g
  | n :: ns, g => removeInbound node ns (removeEdge g n node)

/-- directed.go:57-63 `RemoveNode`. -/
def removeNode (g : DirectedGraph) (node : Str) : DirectedGraph :=
  (removeInbound node g.keys g).del node

/-- directed.go:66-68 `OutDegree`. -/
def outDegree (g : DirectedGraph) (node : Str) : Nat := (getSet g node).length

/-- tsort.go:41-47 `visitor`, without the constant field `graph`.  `cycle = none` is Go's nil
slice.  The sets `visited` and `visiting` are lists without duplicates; only membership in them is
observed. -/
structure Visitor where
  visited : List Str
  visiting : List Str
  cycle : Option (List Str)
  sorted : List Str
deriving DecidableEq, Repr

/-- tsort.go:59-74: the loop of `visit` over the remaining edges of `n` and the code after it.
`rec` is the recursive call `v.visit(m)`; `none` means the recursion did not return. -/
def visitEdges (rec : Str → Visitor → Option (Visitor × Str)) (n : Str) :
    List Str → Visitor → Option (Visitor × Str)
  | [], v => some ({ v with visiting := v.visiting.erase n, visited := n :: v.visited,
                            sorted := v.sorted ++ [n] }, [])
  | m :: ms, v =>
    match rec m v with
    | none => none
    | some (v', cycleStart) =>
      match v'.cycle with
      | none => visitEdges rec n ms v'
      | some c =>
        if cycleStart ≠ [] then
          some ({ v' with cycle := some (c ++ [n]) }, if n = cycleStart then [] else cycleStart)
        else some (v', cycleStart)

/-- tsort.go:49-75 `visit`.  The first argument bounds the recursion depth; `none` is returned when
it is exhausted.  `visit_total` shows that with the depth used by `tsort` this never happens. -/
def visit (graph : Str → List Str) : Nat → Str → Visitor → Option (Visitor × Str)
  | 0, _, _ => none
  | fuel + 1, n, v =>
    if n ∈ v.visiting then
      some ({ v with cycle := some (match v.cycle with | none => [] | some c => c) }, n)
    else if n ∈ v.visited then some (v, [])
    else visitEdges (visit graph fuel) n (graph n) { v with visiting := n :: v.visiting }

/-- The two ways `TSort` returns: `(sorted, nil)` or `(nil, cycle)`. -/
inductive TSortResult where
  | sorted (l : List Str)
  | cyclic (c : List Str)
deriving DecidableEq, Repr

/-- tsort.go:28-38: the loop of `TSort` over the sorted nodes. -/
def tsortLoop (graph : Str → List Str) (fuel : Nat) : List Str → Visitor → Option TSortResult
  | [], v => some (.sorted v.sorted)
  | n :: ns, v =>
    if n ∈ v.visited then tsortLoop graph fuel ns v
    else match visit graph fuel n v with
      | none => none
      | some (v', _) =>
        match v'.cycle with
        | some c => some (.cyclic c)
        | none => tsortLoop graph fuel ns v'

/-- tsort.go:6-39 `TSort`.  `none` would mean that the search does not terminate. -/
def tsort (g : DirectedGraph) : Option TSortResult :=
  tsortLoop (fun n => sortStrs (getSet g n)) (g.length + 1) (sortStrs g.keys)
    { visited := [], visiting := [], cycle := none, sorted := [] }

/-- dependency.go:4-13 `DependencyGraph`; the linked list `pending` is a list. -/
structure DepGraph where
  dependencies : GoMap Str NodeSet
  dependents : GoMap Str NodeSet
  pending : List Str
deriving DecidableEq, Repr

/-- dependency.go:46-48: `if g.dependents[m] == nil { g.dependents[m] = NodeSet{} }`. -/
def ensureSet (dents : GoMap Str NodeSet) (m : Str) : GoMap Str NodeSet :=
  match dents.get? m with
  | none => dents.set m []
  | some _ => dents

/-- dependency.go:45-49: body of the inner loop, registering that `n` depends on `m`. -/
def addDep (n : Str) (g : DepGraph) (m : Str) : DepGraph :=
  let deps := g.dependencies.set n (NodeSet.add (getSet g.dependencies n) m)
  let dents := ensureSet g.dependents m
  { g with dependencies := deps, dependents := dents.set m (NodeSet.add (getSet dents m) n) }

/-- dependency.go:42-51: the outer loop filling `dependencies` and `dependents`. -/
def fillDeps : List (Str × NodeSet) → DepGraph → DepGraph
  | [], g => g
  | (n, edges) :: rest, g =>
    fillDeps rest (edges.foldl (addDep n) { g with dependencies := g.dependencies.set n [] })

/-- dependency.go:16-54 `NewDependencyGraph`; `none` would mean non-termination. -/
def newDependencyGraph (nodes : GoMap Str (List Str)) : Option (Except DagError DepGraph) :=
  match newDirectedGraph nodes with
  | .error e => some (.error e)
  | .ok digraph =>
    match tsort digraph with
    | none => none
    | some (.cyclic c) => some (.error (.circular c))
    | some (.sorted order) =>
      some (.ok (fillDeps digraph { dependencies := [], dependents := [], pending := order }))

/-- dependency.go:57-59 `HasPending`. -/
def DepGraph.hasPending (g : DepGraph) : Bool :=
  match g.pending with
  | [] => false
  | _ :: _ => true

/-- dependency.go:66: `g.dependencies[id].Remove(completed)`; a no-op on the nil set. -/
def dropDep (deps : GoMap Str NodeSet) (id completed : Str) : GoMap Str NodeSet :=
  match deps.get? id with
  | some s => deps.set id (NodeSet.remove s completed)
  | none => deps

/-- dependency.go:65-67: removing `completed` from the dependencies of its dependents. -/
def markCompleted (completed : Str) : List Str → GoMap Str NodeSet → GoMap Str NodeSet
  | [], deps => deps
  | id :: ids, deps =>
    markCompleted completed ids (dropDep deps id completed)

/-- dependency.go:69-74: pops the prefix of startable tasks; returns it and the rest. -/
def popReady (isReady : Str → Bool) : List Str → List Str × List Str
  | [] => ([], [])
  | h :: t =>
    if isReady h then
      let (e, r) := popReady isReady t
      (h :: e, r)
    else ([], h :: t)

/-- dependency.go:76-82: the second loop, started at a list whose head stays.  After unlinking
`p` the loop's post statement moves `head` to the node after `p`, which is therefore not examined.
Returns the tasks unlinked and the remaining list. -/
def sweep (isReady : Str → Bool) : List Str → List Str × List Str
  | [] => ([], [])
  | [h] => ([], [h])
  | h :: p :: rest =>
    if isReady p then
      let (e, r) := sweep isReady rest
      (p :: e, h :: r)
    else
      let (e, r) := sweep isReady (p :: rest)
      (e, h :: r)

/-- dependency.go:63-84 `Next`: new state and returned slice. -/
def DepGraph.next (g : DepGraph) (completed : Str) : DepGraph × List Str :=
  let deps := markCompleted completed (getSet g.dependents completed) g.dependencies
  let isReady := fun id => decide (NodeSet.size (getSet deps id) < 1)
  let (ready1, rest) := popReady isReady g.pending
  let (ready2, rest2) := sweep isReady rest
  ({ g with dependencies := deps, pending := rest2 }, ready1 ++ ready2)

end Verif.Dag
