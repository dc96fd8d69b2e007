import Verif.Base.GoMap
import Mathlib.Logic.Relation
import Mathlib.Data.Finset.Prod
import Mathlib.Data.Finset.Union

/-!
# What the `dag` properties mean

Independent of the model: notions about the *input* map `nodes : map[string][]string` and about
mathematical digraphs.
-/

namespace Verif.Dag.Spec
open Verif

/-- In the input map, `n` is listed and lists `m`. -/
def Edge (nodes : GoMap Str (List Str)) (n m : Str) : Prop :=
  ∃ es, nodes.get? n = some es ∧ m ∈ es

/-- Every listed edge names a listed node. -/
def Closed (nodes : GoMap Str (List Str)) : Prop :=
  ∀ n m, Edge nodes n m → m ∈ nodes.keys

/-- No directed cycle of any length, self loops included. -/
def Acyclic (E : Str → Str → Prop) : Prop := ∀ n, ¬ Relation.TransGen E n n

/-- `l` lists every member of `N` exactly once, edge targets before edge sources. -/
structure IsTopoOrder (N : List Str) (E : Str → Str → Prop) (l : List Str) : Prop where
  nodup : l.Nodup
  complete : ∀ x, x ∈ l ↔ x ∈ N
  before : ∀ n m, n ∈ N → E n m → ∃ l1 l2 l3, l = l1 ++ m :: l2 ++ n :: l3

/-- `c` is a simple directed cycle in the order Go reports it: each node is an edge target of the
next one, and the last node is an edge target of the first one. -/
structure IsReportedCycle (E : Str → Str → Prop) (c : List Str) : Prop where
  nodup : c.Nodup
  chain : c.IsChain (fun a b => E b a)
  closes : ∃ first last, c.head? = some first ∧ c.getLast? = some last ∧ E first last

/-- A mathematical finite digraph: nodes and a set of (source, target) pairs. -/
structure Digraph where
  nodes : Finset Str
  edges : Finset (Str × Str)

/-- The mutating operations of the API. -/
inductive Op where
  | addEdge (node edge : Str)
  | addEdges (node : Str) (edges : List Str)
  | removeEdge (node edge : Str)
  | removeNode (node : Str)

/-- The effect of an operation on the mathematical digraph. -/
def Digraph.apply (G : Digraph) : Op → Digraph
  | .addEdge a b => ⟨insert a (insert b G.nodes), insert (a, b) G.edges⟩
  | .addEdges a bs =>
    if bs = [] then G
    else ⟨insert a (G.nodes ∪ bs.toFinset), G.edges ∪ bs.toFinset.image (fun b => (a, b))⟩
  | .removeEdge a b => ⟨G.nodes, G.edges.erase (a, b)⟩
  | .removeNode a => ⟨G.nodes.erase a, G.edges.filter (fun e => e.1 ≠ a ∧ e.2 ≠ a)⟩

/-- Number of edges leaving `n`. -/
def Digraph.outDegree (G : Digraph) (n : Str) : Nat := (G.edges.filter (fun e => e.1 = n)).card

/-- No edge mentions an unknown node. -/
def Digraph.WellFormed (G : Digraph) : Prop := ∀ a b, (a, b) ∈ G.edges → a ∈ G.nodes ∧ b ∈ G.nodes

end Verif.Dag.Spec

namespace Verif.Dag.Spec
open Verif

/-- The digraph described by an input map. -/
def Digraph.ofInput (nodes : GoMap Str (List Str)) : Digraph :=
  ⟨nodes.keys.toFinset, nodes.toFinset.biUnion (fun p => p.2.toFinset.image (fun m => (p.1, m)))⟩

/-- The edge relation of a digraph. -/
def Digraph.Edge (G : Digraph) (n m : Str) : Prop := (n, m) ∈ G.edges

end Verif.Dag.Spec
