import Verif.Book.Model

/-!
# Model of `runbook.Dot` (`/repo/internal/runbook/runbook.go`)

The library `github.com/awalterschulze/gographviz`, whose source is not in the repository, is modelled
from knowledge as far as `Dot` uses it: what each call adds to the graph. The text `String` makes of a
graph is not modelled. `esc` is what `Escape` does to names and values. No call passes attributes.
-/

namespace Verif.Dot
open Verif Book

/-- gographviz `type Edge struct`, without ports. -/
structure Edge where
  src : Str
  dst : Str
  directed : Bool
deriving DecidableEq

/-- gographviz `type Graph struct`. The attributes of nodes and edges are left out. -/
structure Graph where
  name : Str := []
  directed : Bool := false
  attrs : GoMap Str Str := []
  /-- the subgraphs by name, with their attributes -/
  subGraphs : GoMap Str (GoMap Str Str) := []
  nodes : List Str := []
  /-- parent and child -/
  relations : List (Str × Str) := []
  edges : List Edge := []

namespace Graph

/-- `AddAttr`. An unknown graph is an error, which `Dot` does not look at. -/
def addAttr (g : Graph) (parent field value : Str) : Graph :=
  if g.name = parent then { g with attrs := g.attrs.set field value }
  else
    match g.subGraphs.get? parent with
    | some a => { g with subGraphs := g.subGraphs.set parent (a.set field value) }
    | none => g

/-- `Relations.Add`: sets of children and of parents. -/
def relate (g : Graph) (parent child : Str) : Graph :=
  if (parent, child) ∈ g.relations then g else { g with relations := g.relations ++ [(parent, child)] }

/-- `AddSubGraph`. -/
def addSubGraph (g : Graph) (parent name : Str) : Graph :=
  ({ g with subGraphs := if g.subGraphs.has name then g.subGraphs else g.subGraphs.set name [] } :
    Graph).relate parent name

/-- `AddNode`. -/
def addNode (g : Graph) (parent name : Str) : Graph :=
  ({ g with nodes := if name ∈ g.nodes then g.nodes else g.nodes ++ [name] } : Graph).relate parent name

/-- `AddEdge`. -/
def addEdge (g : Graph) (src dst : Str) (directed : Bool) : Graph :=
  { g with edges := g.edges ++ [⟨src, dst, directed⟩] }

end Graph

variable (esc : Str → Str)

/-- runbook.go:66-70: a target. -/
def addTarget (g : Graph) (targetID : Str) : Graph :=
  let graphID := b!"cluster_" ++ targetID
  (g.addSubGraph (esc b!"runbook") (esc graphID)).addAttr (esc graphID) (esc b!"label") (esc targetID)

/-- runbook.go:74-76: the edges of a task. -/
def addEdges (g : Graph) (dstID : Str) (after : List Str) : Graph :=
  after.foldl (fun g srcID => g.addEdge (esc srcID) (esc dstID) true) g

/-- runbook.go:72-77: a task. -/
def addTask (g : Graph) (p : Str × Task) : Graph :=
  let graphID := b!"cluster_" ++ p.2.target
  addEdges esc (g.addNode (esc graphID) (esc p.1)) p.1 p.2.after

/-- runbook.go:59-64. -/
def start (splines : Str) : Graph :=
  let g : Graph := { directed := true, name := esc b!"runbook" }
  let g := g.addAttr (esc b!"runbook") (esc b!"newrank") (esc b!"true")
  if splines ≠ [] then g.addAttr (esc b!"runbook") (esc b!"splines") (esc splines) else g

/-- runbook.go:59-77 `Dot`: the graph drawn for a runbook; its maps are in the order of iteration. -/
def draw (book : Runbook) (splines : Str) : Graph :=
  book.tasks.foldl (addTask esc) ((book.targets.map Prod.fst).foldl (addTarget esc) (start esc splines))

end Verif.Dot
