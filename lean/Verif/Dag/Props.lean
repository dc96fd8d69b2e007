import Verif.Dag.DependencyLemmas

/-!
# Properties C01-C11 (`internal/dag`)

`nodes` is the argument of the constructors, a Go map from node to edge list; `nodes.WF` says that
it is a map (distinct keys).
-/

namespace Verif.Dag
open Verif Spec Relation

/-- Running one API operation on the model. -/
def applyOp (g : DirectedGraph) : Op → DirectedGraph
  | .addEdge a b => addEdge g a b
  | .addEdges a bs => addEdges g a bs
  | .removeEdge a b => removeEdge g a b
  | .removeNode a => removeNode g a

/-- `Built g G`: the Go graph `g` was obtained from `NewDirectedGraph` by some sequence of
operations, and `G` is the mathematical digraph obtained by the same operations. -/
inductive Built : DirectedGraph → Digraph → Prop
  | new {nodes : GoMap Str (List Str)} {g : DirectedGraph} (wf : nodes.WF)
      (h : newDirectedGraph nodes = .ok g) : Built g (Digraph.ofInput nodes)
  | op {g : DirectedGraph} {G : Digraph} (h : Built g G) (o : Op) :
      Built (applyOp g o) (G.apply o)

theorem mem_ofInput_edges {nodes : GoMap Str (List Str)} (wf : nodes.WF) (n m : Str) :
    (n, m) ∈ (Digraph.ofInput nodes).edges ↔ Spec.Edge nodes n m := by
  simp only [Digraph.ofInput, Finset.mem_biUnion, List.mem_toFinset, Finset.mem_image,
    Prod.mk.injEq, Prod.exists, Spec.Edge]
  constructor
  · rintro ⟨a, es, h, x, hx, rfl, rfl⟩; exact ⟨es, GoMap.get?_of_mem wf h, hx⟩
  · rintro ⟨es, h, hm⟩; exact ⟨n, es, GoMap.mem_of_get? h, m, hm, rfl, rfl⟩

theorem Built.represents {g : DirectedGraph} {G : Digraph} (h : Built g G) : Represents g G := by
  induction h with
  | new wf h =>
    obtain ⟨h1, h2, _, h4⟩ := newDirectedGraph_ok wf h
    refine ⟨h2, ?_, ?_⟩
    · intro n; rw [h1]; simp [Digraph.ofInput]
    · intro n m; rw [mem_getSet, h4, mem_ofInput_edges wf]
  | op _ o ih =>
    cases o with
    | addEdge a b => exact ih.addEdge a b
    | addEdges a bs => exact ih.addEdges a bs
    | removeEdge a b => exact ih.removeEdge a b
    | removeNode a => exact ih.removeNode a

/-! ## C01 -/

/-- **C01.** `NewDirectedGraph` succeeds exactly on closed inputs, with exactly the given nodes and
edges; otherwise its error names a listed edge to an unlisted node. -/
theorem C01_newDirectedGraph_exact (nodes : GoMap Str (List Str)) (wf : nodes.WF) :
    (Closed nodes → ∃ g, newDirectedGraph nodes = .ok g ∧
      (∀ n, hasNode g n = true ↔ n ∈ nodes.keys) ∧
      (∀ n m, (∃ s, g.get? n = some s ∧ NodeSet.contains s m = true) ↔ Spec.Edge nodes n m) ∧
      (∀ n es, nodes.get? n = some es → outDegree g n = es.toFinset.card)) ∧
    (¬ Closed nodes → ∃ n m, newDirectedGraph nodes = .error (.invalidEdge n m) ∧
      Spec.Edge nodes n m ∧ m ∉ nodes.keys) := by
  cases h : newDirectedGraph nodes with
  | ok g =>
    obtain ⟨h1, h2, h3, h4⟩ := newDirectedGraph_ok wf h
    refine ⟨fun _ => ⟨g, rfl, ?_, ?_, ?_⟩, fun hc => absurd h3 hc⟩
    · intro n; rw [hasNode, GoMap.has_iff, h1]
    · intro n m; rw [← h4]; simp [NodeSet.contains]
    · intro n es hes
      rw [outDegree, ← List.toFinset_card_of_nodup (h2.nodup_getSet n)]
      congr 1
      ext m
      simp only [List.mem_toFinset, mem_getSet, h4, Spec.Edge, hes, Option.some.injEq]
      constructor
      · rintro ⟨_, rfl, h⟩; exact h
      · intro h; exact ⟨_, rfl, h⟩
  | error e =>
    obtain ⟨n, m, h1, h2, rfl⟩ := newDirectedGraph_err wf h
    exact ⟨fun hc => absurd (hc n m h1) h2, fun _ => ⟨n, m, rfl, h1, h2⟩⟩

/-- Non-vacuity: a closed and a non-closed input. -/
example : newDirectedGraph [(b!"a", [b!"b", b!"b"]), (b!"b", [])] =
    .ok [(b!"a", [b!"b"]), (b!"b", [])] ∧
    newDirectedGraph [(b!"a", [b!"b"])] = .error (.invalidEdge b!"a" b!"b") := by decide

/-! ## C02 -/

/-- **C02.** However a graph was built, the API answers as the mathematical digraph does, and no
edge dangles. -/
theorem C02_digraph_refinement {g : DirectedGraph} {G : Digraph} (h : Built g G) :
    (∀ n, hasNode g n = true ↔ n ∈ G.nodes) ∧
    (∀ n, outDegree g n = G.outDegree n) ∧
    (∀ n m, (∃ s, g.get? n = some s ∧ NodeSet.contains s m = true) ↔ G.Edge n m) ∧
    (∀ n m, G.Edge n m → hasNode g n = true ∧ hasNode g m = true) := by
  have r := h.represents
  refine ⟨?_, r.outDegree, ?_, ?_⟩
  · intro n; rw [hasNode, GoMap.has_iff, r.nodes]
  · intro n m; rw [Digraph.Edge, ← r.edges, mem_getSet]; simp [NodeSet.contains]
  · intro n m hm
    rw [Digraph.Edge, ← r.edges] at hm
    simpa [hasNode] using r.wf.mem_keys hm

/-- Non-vacuity: a graph built by a history that uses every operation. -/
example : ∃ g G, Built g G ∧ hasNode g b!"b" = false ∧ outDegree g b!"a" = 1 :=
  ⟨_, _, Built.op (Built.op (Built.op (Built.op (Built.new (nodes := []) (by decide) rfl)
    (.addEdges b!"a" [b!"b", b!"c", b!"d"])) (.addEdge b!"b" b!"a")) (.removeEdge b!"a" b!"c"))
    (.removeNode b!"b"), by decide, by decide⟩

/-! ## C03 - C06: `TSort` -/

theorem IsTopoOrder.congr {N N' : List Str} {E E' : Str → Str → Prop} {l : List Str}
    (hN : ∀ x, x ∈ N ↔ x ∈ N') (hE : ∀ a b, E a b ↔ E' a b) (h : IsTopoOrder N E l) :
    IsTopoOrder N' E' l :=
  ⟨h.nodup, fun x => (h.complete x).trans (hN x),
    fun n m hn hm => h.before n m ((hN n).mpr hn) ((hE n m).mpr hm)⟩

theorem built_edge {g : DirectedGraph} {G : Digraph} (h : Built g G) : GEdge g = G.Edge := by
  funext n m; exact propext (h.represents.edges n m)

/-- **C03.** When `TSort` reports no cycle its result is a topological order of the graph. -/
theorem C03_tsort_topological {g : DirectedGraph} {G : Digraph} (h : Built g G) {l : List Str}
    (hl : tsort g = some (.sorted l)) : IsTopoOrder G.nodes.toList G.Edge l := by
  have r := h.represents
  rcases tsort_spec r.wf with ⟨l', e, ht⟩ | ⟨c, e, _⟩
  · rw [hl] at e; cases e
    rw [built_edge h] at ht
    exact IsTopoOrder.congr (by intro x; rw [r.nodes]; simp) (fun _ _ => Iff.rfl) ht
  · rw [hl] at e; cases e

/-- **C04.** `TSort` always terminates; it returns an order iff the graph is acyclic and a cycle
iff it is not. -/
theorem C04_tsort_decides_acyclicity {g : DirectedGraph} {G : Digraph} (h : Built g G) :
    tsort g ≠ none ∧
    ((∃ l, tsort g = some (.sorted l)) ↔ Acyclic G.Edge) ∧
    ((∃ c, tsort g = some (.cyclic c)) ↔ ¬ Acyclic G.Edge) := by
  have r := h.represents
  rcases tsort_spec r.wf with ⟨l, e, ht⟩ | ⟨c, e, ⟨x, hx⟩, _⟩
  · rw [built_edge h] at ht
    have hac : Acyclic G.Edge := IsTopoOrder.acyclic ht (by
      intro n m hm; exact (r.wf.mem_keys ((r.edges n m).mpr hm)).1)
    simp [e, hac]
  · rw [built_edge h] at hx
    have hac : ¬ Acyclic G.Edge := fun ha => ha x hx
    simp [e, hac]

/-- **C05, every graph.** The reported cycle is a simple cycle of the graph, unless it is empty: then there is a cycle
through the node named "". -/
theorem C05_cycle_or_unnamed {g : DirectedGraph} {G : Digraph} (h : Built g G) {c : List Str}
    (hc : tsort g = some (.cyclic c)) :
    IsReportedCycle G.Edge c ∨ c = [] ∧ Relation.TransGen G.Edge b!"" b!"" := by
  have r := h.represents
  rcases tsort_spec r.wf with ⟨l, e, _⟩ | ⟨c', e, _, hh⟩
  · rw [hc] at e; cases e
  · rw [hc] at e; cases e
    rw [built_edge h] at hh
    exact hh

/-- **C05 (partial).** If no cycle goes through a node named "", the reported cycle is a simple cycle of the graph.
Missing: graphs with a cycle through a node named "" (see `C05_refuted`). -/
theorem C05_cycle_genuine_partial {g : DirectedGraph} {G : Digraph} (h : Built g G)
    (hne : ¬ Relation.TransGen G.Edge b!"" b!"") {c : List Str} (hc : tsort g = some (.cyclic c)) :
    IsReportedCycle G.Edge c :=
  (C05_cycle_or_unnamed h hc).resolve_right fun hh => hne hh.2

/-- **C05 refuted** for graphs with a node named "": the self loop on "" is reported as an empty
cycle. -/
theorem C05_refuted : ∃ g G c, Built g G ∧ tsort g = some (.cyclic c) ∧
    ¬ IsReportedCycle G.Edge c :=
  ⟨_, _, [], Built.new (nodes := [(b!"", [b!""])]) (by decide) rfl, by decide, by
    rintro ⟨_, _, f, l, h, _⟩; simp at h⟩

/-- **C06.** The outcome of `TSort` depends only on the mathematical graph: any two Go graphs with
the same nodes and edges (whatever their construction histories and map iteration orders) give the
same result. -/
theorem C06_tsort_deterministic {g g' : DirectedGraph} {G : Digraph} (h : Built g G)
    (h' : Built g' G) : tsort g = tsort g' := by
  have r := h.represents
  have r' := h'.represents
  have hk : g.keys.Perm g'.keys := (List.perm_ext_iff_of_nodup r.wf.wf r'.wf.wf).mpr
    (fun x => by rw [r.nodes, r'.nodes])
  have hs : ∀ n, sortStrs (getSet g n) = sortStrs (getSet g' n) := fun n =>
    sortStrs_congr ((List.perm_ext_iff_of_nodup (r.wf.nodup_getSet n) (r'.wf.nodup_getSet n)).mpr
      (fun x => by rw [r.edges, r'.edges]))
  have hl : g.length = g'.length := by simpa [GoMap.keys] using hk.length_eq
  unfold tsort
  rw [sortStrs_congr hk, hl]
  congr 1
  funext n; exact hs n

/-- The same for iteration orders of one graph: permuting the entries of the map and of every
edge set changes nothing. -/
theorem C06_tsort_map_order {g g' : DirectedGraph} (hk : g.keys.Perm g'.keys)
    (hs : ∀ n, (getSet g n).Perm (getSet g' n)) : tsort g = tsort g' := by
  have hl : g.length = g'.length := by simpa [GoMap.keys] using hk.length_eq
  unfold tsort
  rw [sortStrs_congr hk, hl]
  congr 1
  funext n; exact sortStrs_congr (hs n)

/-- Non-vacuity of C03/C04/C05/C06: a built acyclic graph with a diamond and a built cyclic one. -/
example : tsort [(b!"d", [b!"b", b!"c"]), (b!"b", [b!"a"]), (b!"c", [b!"a"]), (b!"a", [])] =
      some (.sorted [b!"a", b!"b", b!"c", b!"d"]) ∧
    tsort [(b!"c", [b!"a"]), (b!"a", [b!"b"]), (b!"b", [b!"c"]), (b!"0", [b!"a"])] =
      some (.cyclic [b!"c", b!"b", b!"a"]) := by decide
example : ∃ g G, Built g G ∧ tsort g = some (.sorted [b!"a", b!"b", b!"c", b!"d"]) ∧
    b!"" ∉ G.nodes :=
  ⟨_, _, Built.new (nodes := [(b!"d", [b!"b", b!"c"]), (b!"b", [b!"a"]), (b!"c", [b!"a"]),
    (b!"a", [])]) (by decide) rfl, by decide, by decide⟩
/-- A node named "" does no harm when it is not on a cycle. -/
example : ∃ g G, Built g G ∧ tsort g = some (.cyclic [b!"c", b!"b", b!"a"]) ∧ b!"" ∈ G.nodes ∧
    ¬ Relation.TransGen G.Edge b!"" b!"" :=
  ⟨_, _, Built.new (nodes := [(b!"c", [b!"a", b!""]), (b!"a", [b!"b"]), (b!"b", [b!"c"]), (b!"", [])])
    (by decide) rfl, by decide, by decide, fun h => by
      obtain ⟨m, hm, _⟩ := Relation.TransGen.head'_iff.mp h
      simp [Digraph.Edge, Digraph.ofInput] at hm⟩

/-! ## C07 -/

/-- **C07.** `NewDependencyGraph` succeeds iff the input is closed and acyclic; a dangling
dependency is reported as such, and otherwise a cycle is reported. -/
theorem C07_newDependencyGraph_exact (nodes : GoMap Str (List Str)) (wf : nodes.WF) :
    newDependencyGraph nodes ≠ none ∧
    ((∃ g, newDependencyGraph nodes = some (.ok g)) ↔
      Closed nodes ∧ Acyclic (Spec.Edge nodes)) ∧
    (¬ Closed nodes → ∃ n m, newDependencyGraph nodes = some (.error (.invalidEdge n m)) ∧
      Spec.Edge nodes n m ∧ m ∉ nodes.keys) ∧
    (Closed nodes → ¬ Acyclic (Spec.Edge nodes) →
      ∃ c, newDependencyGraph nodes = some (.error (.circular c)) ∧
        (IsReportedCycle (Spec.Edge nodes) c ∨
          c = [] ∧ Relation.TransGen (Spec.Edge nodes) b!"" b!"")) := by
  rcases newDependencyGraph_cases wf with ⟨n, m, e, h1, h2⟩ | ⟨c, e, h1, h2, h3⟩ | ⟨g, e, h1, h2, _⟩
  · have hc : ¬ Closed nodes := fun hc => h2 (hc n m h1)
    refine ⟨by simp [e], by simp [e, hc], fun _ => ⟨n, m, e, h1, h2⟩, fun h => absurd h hc⟩
  · refine ⟨by simp [e], by simp [e, h2], fun h => absurd h1 h, fun _ _ => ⟨c, e, h3⟩⟩
  · refine ⟨by simp [e], by simp [e, h1, h2], fun h => absurd h1 h, fun _ h => absurd h2 h⟩

/-- Non-vacuity: each of the three outcomes occurs. -/
example : (∃ g, newDependencyGraph [(b!"b", [b!"a"]), (b!"a", [])] = some (.ok g)) ∧
    newDependencyGraph [(b!"b", [b!"a"])] = some (.error (.invalidEdge b!"b" b!"a")) ∧
    newDependencyGraph [(b!"b", [b!"a"]), (b!"a", [b!"b"])] =
      some (.error (.circular [b!"b", b!"a"])) :=
  ⟨⟨_, rfl⟩, by decide, by decide⟩

/-! ## C08 - C11: `Next` over arbitrary histories

`(g.run cs).2` is the list of the slices returned by the calls `Next(c)` for `c` in `cs`;
`(g.run cs).1` is the graph afterwards. -/

theorem depInv_of_new {nodes : GoMap Str (List Str)} (wf : nodes.WF) {g : DepGraph}
    (hg : newDependencyGraph nodes = some (.ok g)) : Closed nodes ∧ DepInv nodes g [] [] := by
  rcases newDependencyGraph_cases wf with ⟨n, m, e, _⟩ | ⟨c, e, _⟩ | ⟨g', e, h1, _, h2⟩
  · rw [hg] at e; cases e
  · rw [hg] at e; cases e
  · rw [hg] at e; cases e; exact ⟨h1, h2⟩

theorem depInv_run {nodes : GoMap Str (List Str)} (wf : nodes.WF) {g : DepGraph}
    (hg : newDependencyGraph nodes = some (.ok g)) (cs : List Str) :
    DepInv nodes (g.run cs).1 cs (g.run cs).2.flatten := by
  simpa using run_inv (depInv_of_new wf hg).2 cs

/-- **C08.** After any history, `Next(c)` returns only tasks all of whose dependencies have been
reported. -/
theorem C08_next_dependencies_reported {nodes : GoMap Str (List Str)} (wf : nodes.WF)
    {g : DepGraph} (hg : newDependencyGraph nodes = some (.ok g)) (cs : List Str) (c x : Str)
    (hx : x ∈ ((g.run cs).1.next c).2) (m : Str) (hm : Spec.Edge nodes x m) : m ∈ cs ++ [c] :=
  (next_inv (depInv_run wf hg cs) c).2.2 x hx m hm

/-- **C09.** Over any history no task is returned twice, only tasks of the input are returned, and
`HasPending` is false exactly when all of them have been. -/
theorem C09_next_once_hasPending_exact {nodes : GoMap Str (List Str)} (wf : nodes.WF)
    {g : DepGraph} (hg : newDependencyGraph nodes = some (.ok g)) (cs : List Str) :
    (g.run cs).2.flatten.Nodup ∧
    (∀ x ∈ (g.run cs).2.flatten, x ∈ nodes.keys) ∧
    ((g.run cs).1.hasPending = false ↔ ∀ x ∈ nodes.keys, x ∈ (g.run cs).2.flatten) := by
  have h := depInv_run wf hg cs
  have hnd := h.part.nodup_iff.mpr wf
  rw [List.nodup_append] at hnd
  refine ⟨hnd.1, fun x hx => h.part.mem_iff.mp (List.mem_append_left _ hx), ?_⟩
  unfold DepGraph.hasPending
  cases e : (g.run cs).1.pending with
  | nil =>
    simp only [true_iff]
    intro x hx
    have := h.part.mem_iff.mpr hx
    simpa [e] using this
  | cons y t =>
    simp only [Bool.true_eq_false, false_iff, not_forall]
    refine ⟨y, h.part.mem_iff.mp (by simp [e]), fun hy => ?_⟩
    exact hnd.2.2 y hy y (by simp [e]) rfl

/-- **C10.** If some unreleased task has all its dependencies reported, `Next` returns something;
in particular when every released task has been reported and some task is unreleased. -/
theorem C10_next_progress {nodes : GoMap Str (List Str)} (wf : nodes.WF)
    {g : DepGraph} (hg : newDependencyGraph nodes = some (.ok g)) (cs : List Str) (c : Str) :
    (∀ x ∈ nodes.keys, x ∉ (g.run cs).2.flatten →
      (∀ m, Spec.Edge nodes x m → m ∈ cs ++ [c]) → ((g.run cs).1.next c).2 ≠ []) ∧
    ((∀ y ∈ (g.run cs).2.flatten, y ∈ cs ++ [c]) →
      (∃ x ∈ nodes.keys, x ∉ (g.run cs).2.flatten) → ((g.run cs).1.next c).2 ≠ []) := by
  have h := depInv_run wf hg cs
  have hcl := (depInv_of_new wf hg).1
  have hpend : ∀ x ∈ nodes.keys, x ∉ (g.run cs).2.flatten → x ∈ (g.run cs).1.pending := by
    intro x hx hn
    rcases List.mem_append.mp (h.part.mem_iff.mpr hx) with hh | hh
    · exact absurd hh hn
    · exact hh
  refine ⟨fun x hx hn hr => next_progress h c x (hpend x hx hn) hr, ?_⟩
  rintro hall ⟨x, hx, hn⟩
  have hxp := hpend x hx hn
  cases e : (g.run cs).1.pending with
  | nil => rw [e] at hxp; simp at hxp
  | cons y t =>
    refine next_progress h c y (by simp [e]) ?_
    intro m hm
    exact hall m (head_deps_emitted h e m hm hcl)

/-- **C11 (partial).** `Next` returns at least half of the unreleased tasks whose dependencies have
all been reported.  Missing: that it returns all of them, which is false (`C11_refuted`). -/
theorem C11_next_at_least_half_partial {nodes : GoMap Str (List Str)} (wf : nodes.WF)
    {g : DepGraph} (hg : newDependencyGraph nodes = some (.ok g)) (cs : List Str) (c : Str)
    (startable : List Str) (hnd : startable.Nodup)
    (hs : ∀ x ∈ startable, x ∈ nodes.keys ∧ x ∉ (g.run cs).2.flatten ∧
      ∀ m, Spec.Edge nodes x m → m ∈ cs ++ [c]) :
    startable.length ≤ 2 * ((g.run cs).1.next c).2.length := by
  have h := depInv_run wf hg cs
  refine next_half h c startable hnd ?_
  intro x hx
  obtain ⟨h1, h2, h3⟩ := hs x hx
  refine ⟨?_, h3⟩
  rcases List.mem_append.mp (h.part.mem_iff.mpr h1) with hh | hh
  · exact absurd hh h2
  · exact hh

/-- **C11 refuted.** With b after a and independent c, d, the first call returns a and c but not d,
although d has no dependencies at all. -/
theorem C11_refuted : ∃ (nodes : GoMap Str (List Str)) (g : DepGraph), nodes.WF ∧
    newDependencyGraph nodes = some (.ok g) ∧ b!"d" ∈ nodes.keys ∧
    (∀ m, ¬ Spec.Edge nodes b!"d" m) ∧ (g.next b!"").2 = [b!"a", b!"c"] := by
  refine ⟨[(b!"a", []), (b!"b", [b!"a"]), (b!"c", []), (b!"d", [])], _, by decide, rfl, by decide,
    ?_, by decide⟩
  rintro m ⟨es, h1, h2⟩
  have : es = [] := by
    have h3 : GoMap.get? [(b!"a", []), (b!"b", [b!"a"]), (b!"c", []), (b!"d", [])] b!"d" =
      some ([] : List Str) := by decide
    rw [h3] at h1; exact (Option.some.inj h1).symm
  rw [this] at h2; simp at h2

/-- Non-vacuity of C08-C11: a history on a diamond that releases everything. -/
example : ∃ g, newDependencyGraph [(b!"d", [b!"b", b!"c"]), (b!"b", [b!"a"]), (b!"c", [b!"a"]),
      (b!"a", [])] = some (.ok g) ∧
    (g.run [b!"", b!"a", b!"c", b!"b"]).2 = [[b!"a"], [b!"b", b!"c"], [], [b!"d"]] ∧
    (g.run [b!"", b!"a", b!"c", b!"b"]).1.hasPending = false :=
  ⟨_, rfl, by decide, by decide⟩

end Verif.Dag
