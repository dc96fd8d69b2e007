import Verif.Dot.Model
import Mathlib.Data.List.Perm.Basic

/-!
# What a drawing of a runbook shows
-/

namespace Verif.Dot.Spec
open Verif Book

/-- The name of the box of a target. -/
def box (target : Str) : Str := b!"cluster_" ++ target

/-- What is written for one name is not written for another, as far as the runbook has them: the graph
and its boxes are told apart, and the tasks are. -/
structure Apart (esc : Str → Str) (book : Runbook) : Prop where
  boxes : ∀ p ∈ book.targets, ∀ q ∈ book.targets, esc (box p.1) = esc (box q.1) → p.1 = q.1
  graph : ∀ p ∈ book.targets, esc (box p.1) ≠ esc b!"runbook"
  tasks : ∀ p ∈ book.tasks, ∀ q ∈ book.tasks, esc p.1 = esc q.1 → p.1 = q.1
  names : esc b!"newrank" ≠ esc b!"splines"

/-- The graph shows the runbook: it is directed; there is one box per target, with the id of the target
on it; one node per task, in the box of its target and nowhere else; and for each task one arrow from
each task that is to come before it, as often as it is listed. There is nothing else. -/
structure Shows (esc : Str → Str) (book : Runbook) (splines : Str) (g : Graph) : Prop where
  name : g.name = esc b!"runbook"
  directed : g.directed = true
  attrs : g.attrs = (esc b!"newrank", esc b!"true") ::
    (if splines = [] then [] else [(esc b!"splines", esc splines)])
  boxes : g.subGraphs = book.targets.map fun p => (esc (box p.1), [(esc b!"label", esc p.1)])
  one_box : (g.subGraphs.map Prod.fst).Nodup
  nodes : g.nodes = book.tasks.map fun p => esc p.1
  one_node : g.nodes.Nodup
  inside : ∀ parent child, (parent, child) ∈ g.relations ↔
    (parent = esc b!"runbook" ∧ ∃ p ∈ book.targets, child = esc (box p.1)) ∨
    ∃ p ∈ book.tasks, parent = esc (box p.2.target) ∧ child = esc p.1
  edges : g.edges = book.tasks.flatMap fun p => p.2.after.map fun before => ⟨esc before, esc p.1, true⟩

end Verif.Dot.Spec
