import Verif.Dag.Model
import Verif.Dag.Spec
import Mathlib.Data.Finset.Image

/-! Lemmas about `NewDirectedGraph` and the graph operations. -/

namespace Verif.Dag
open Verif Spec

theorem NodeSet.mem_add {s : NodeSet} {n x : Str} : x ∈ NodeSet.add s n ↔ x = n ∨ x ∈ s := by
  unfold NodeSet.add; split
  · constructor
    · exact Or.inr
    · rintro (rfl | h) <;> assumption
  · simp [or_comm]

theorem NodeSet.nodup_add {s : NodeSet} (h : s.Nodup) (n : Str) : (NodeSet.add s n).Nodup := by
  unfold NodeSet.add; split
  · exact h
  · rename_i hn
    exact List.nodup_append.mpr ⟨h, by simp, by simp; intro a ha e; exact hn (e ▸ ha)⟩

theorem NodeSet.mem_remove {s : NodeSet} {n x : Str} :
    x ∈ NodeSet.remove s n ↔ x ∈ s ∧ x ≠ n := by simp [NodeSet.remove]

theorem NodeSet.nodup_remove {s : NodeSet} (h : s.Nodup) (n : Str) : (NodeSet.remove s n).Nodup :=
  h.filter _

/-- The invariant of every graph the API can build: a map of sets without dangling edges. -/
structure GraphWF (g : DirectedGraph) : Prop where
  wf : g.WF
  sets : ∀ n s, g.get? n = some s → s.Nodup
  closed : ∀ n s, g.get? n = some s → ∀ m ∈ s, m ∈ g.keys

theorem buildSet_ok {nodes : GoMap Str (List Str)} {n : Str} {es : List Str} {s s' : NodeSet}
    (h : buildSet nodes n es s = .ok s') :
    (∀ m ∈ es, m ∈ nodes.keys) ∧ (∀ x, x ∈ s' ↔ x ∈ s ∨ x ∈ es) ∧ (s.Nodup → s'.Nodup) := by
  induction es generalizing s with
  | nil => simp only [buildSet, Except.ok.injEq] at h; subst h; simp
  | cons m ms ih =>
    simp only [buildSet] at h
    split at h
    · rename_i hm
      obtain ⟨h1, h2, h3⟩ := ih h
      refine ⟨?_, ?_, fun hs => h3 (NodeSet.nodup_add hs _)⟩
      · intro x hx
        rcases List.mem_cons.mp hx with rfl | hx
        · exact GoMap.has_iff.mp hm
        · exact h1 x hx
      · intro x; rw [h2, NodeSet.mem_add, List.mem_cons]; tauto
    · cases h

theorem buildSet_err {nodes : GoMap Str (List Str)} {n : Str} {es : List Str} {s : NodeSet}
    {e : DagError} (h : buildSet nodes n es s = .error e) :
    ∃ m ∈ es, m ∉ nodes.keys ∧ e = .invalidEdge n m := by
  induction es generalizing s with
  | nil => simp [buildSet] at h
  | cons m ms ih =>
    simp only [buildSet] at h
    split at h
    · obtain ⟨x, hx, h'⟩ := ih h
      exact ⟨x, List.mem_cons_of_mem _ hx, h'⟩
    · rename_i hm
      simp only [Except.error.injEq] at h
      exact ⟨m, by simp, fun hk => hm (GoMap.has_iff.mpr hk), h.symm⟩

theorem buildGraph_ok {nodes : GoMap Str (List Str)} {rest : List (Str × List Str)}
    {g g' : DirectedGraph} (hwf : (rest.map Prod.fst).Nodup)
    (hd : ∀ n ∈ rest.map Prod.fst, n ∉ g.keys) (h : buildGraph nodes rest g = .ok g') :
    g'.keys = g.keys ++ rest.map Prod.fst ∧
    (∀ n es, (n, es) ∈ rest → ∃ s, g'.get? n = some s ∧ s.Nodup ∧ (∀ x, x ∈ s ↔ x ∈ es) ∧
      ∀ m ∈ es, m ∈ nodes.keys) ∧
    (∀ n, n ∉ rest.map Prod.fst → g'.get? n = g.get? n) := by
  induction rest generalizing g with
  | nil => simp only [buildGraph, Except.ok.injEq] at h; subst h; simp
  | cons p rest ih =>
    obtain ⟨n, es⟩ := p
    simp only [buildGraph] at h
    split at h
    · cases h
    · rename_i set hset
      simp only [List.map_cons, List.nodup_cons] at hwf
      have hnk : n ∉ g.keys := hd n (by simp)
      obtain ⟨h1, h2, h3⟩ := ih hwf.2 (by
        intro x hx
        rw [GoMap.mem_keys_set]
        rintro (rfl | hk)
        · exact hwf.1 hx
        · exact hd x (by simp [List.mem_map] at hx ⊢; exact Or.inr hx) hk) h
      obtain ⟨a1, a2, a3⟩ := buildSet_ok hset
      refine ⟨?_, ?_, ?_⟩
      · rw [h1, GoMap.keys_set, if_neg hnk]; simp
      · intro x xs hx
        rcases List.mem_cons.mp hx with e | hx
        · cases e
          refine ⟨set, ?_, a3 (by simp), ?_, a1⟩
          · rw [h3 n hwf.1, GoMap.get?_set]; simp
          · intro y; rw [a2]; simp
        · exact h2 x xs hx
      · intro x hx
        simp only [List.map_cons, List.mem_cons, not_or] at hx
        rw [h3 x hx.2, GoMap.get?_set, if_neg (fun e => hx.1 e.symm)]

theorem buildGraph_err {nodes : GoMap Str (List Str)} {rest : List (Str × List Str)}
    {g : DirectedGraph} {e : DagError} (h : buildGraph nodes rest g = .error e) :
    ∃ n es m, (n, es) ∈ rest ∧ m ∈ es ∧ m ∉ nodes.keys ∧ e = .invalidEdge n m := by
  induction rest generalizing g with
  | nil => simp [buildGraph] at h
  | cons p rest ih =>
    obtain ⟨n, es⟩ := p
    simp only [buildGraph] at h
    split at h
    · rename_i e' he
      obtain ⟨m, hm, hk, rfl⟩ := buildSet_err he
      simp only [Except.error.injEq] at h
      exact ⟨n, es, m, by simp, hm, hk, h.symm⟩
    · obtain ⟨n', es', m, h1, h2⟩ := ih h
      exact ⟨n', es', m, List.mem_cons_of_mem _ h1, h2⟩

theorem newDirectedGraph_ok {nodes : GoMap Str (List Str)} {g : DirectedGraph} (wf : nodes.WF)
    (h : newDirectedGraph nodes = .ok g) :
    g.keys = nodes.keys ∧ GraphWF g ∧ Closed nodes ∧
    (∀ n m, (∃ s, g.get? n = some s ∧ m ∈ s) ↔ Edge nodes n m) := by
  obtain ⟨h1, h2, h3⟩ := buildGraph_ok wf (by simp [GoMap.keys]) h
  have hk : g.keys = nodes.keys := by rw [h1]; simp [GoMap.keys]
  have hget : ∀ n s, g.get? n = some s → ∃ es, nodes.get? n = some es ∧ s.Nodup ∧
      (∀ x, x ∈ s ↔ x ∈ es) ∧ ∀ m ∈ es, m ∈ nodes.keys := by
    intro n s hs
    have hn : n ∈ nodes.keys := hk ▸ GoMap.mem_keys_of_get? hs
    obtain ⟨es, hes⟩ := GoMap.exists_get?_of_mem_keys hn
    obtain ⟨s', a, b⟩ := h2 n es (GoMap.mem_of_get? hes)
    rw [hs] at a; cases a
    exact ⟨es, hes, b⟩
  refine ⟨hk, ⟨by unfold GoMap.WF; rw [hk]; exact wf, ?_, ?_⟩, ?_, ?_⟩
  · intro n s hs; obtain ⟨es, _, b, _⟩ := hget n s hs; exact b
  · intro n s hs m hm; obtain ⟨es, _, _, b, c⟩ := hget n s hs
    rw [hk]; exact c m ((b m).mp hm)
  · rintro n m ⟨es, hes, hm⟩
    obtain ⟨s, _, _, _, c⟩ := h2 n es (GoMap.mem_of_get? hes)
    exact c m hm
  · intro n m; constructor
    · rintro ⟨s, hs, hm⟩
      obtain ⟨es, a, _, b, _⟩ := hget n s hs
      exact ⟨es, a, (b m).mp hm⟩
    · rintro ⟨es, hes, hm⟩
      obtain ⟨s, a, _, b, _⟩ := h2 n es (GoMap.mem_of_get? hes)
      exact ⟨s, a, (b m).mpr hm⟩

theorem newDirectedGraph_err {nodes : GoMap Str (List Str)} {e : DagError} (wf : nodes.WF)
    (h : newDirectedGraph nodes = .error e) :
    ∃ n m, Edge nodes n m ∧ m ∉ nodes.keys ∧ e = .invalidEdge n m := by
  obtain ⟨n, es, m, h1, h2, h3, h4⟩ := buildGraph_err h
  exact ⟨n, m, ⟨es, GoMap.get?_of_mem wf h1, h2⟩, h3, h4⟩

/-! ### Refinement of the mutating operations -/

/-- The concrete graph represents the mathematical digraph. -/
structure Represents (g : DirectedGraph) (G : Digraph) : Prop where
  wf : GraphWF g
  nodes : ∀ n, n ∈ g.keys ↔ n ∈ G.nodes
  edges : ∀ n m, m ∈ getSet g n ↔ (n, m) ∈ G.edges

theorem getSet_set (g : GoMap Str NodeSet) (k : Str) (s : NodeSet) (k' : Str) :
    getSet (g.set k s) k' = if k = k' then s else getSet g k' := by
  unfold getSet; rw [GoMap.get?_set]; split <;> rfl

theorem getSet_del (g : GoMap Str NodeSet) (k k' : Str) :
    getSet (g.del k) k' = if k = k' then [] else getSet g k' := by
  unfold getSet; rw [GoMap.get?_del]; split <;> rfl

theorem getSet_of_not_mem {g : GoMap Str NodeSet} {k : Str} (h : k ∉ g.keys) : getSet g k = [] := by
  unfold getSet; rw [GoMap.get?_eq_none.mpr h]; rfl

theorem mem_getSet {g : GoMap Str NodeSet} {k m : Str} :
    m ∈ getSet g k ↔ ∃ s, g.get? k = some s ∧ m ∈ s := by
  unfold getSet; cases h : g.get? k <;> simp

theorem GraphWF.nodup_getSet {g : DirectedGraph} (h : GraphWF g) (n : Str) : (getSet g n).Nodup := by
  unfold getSet
  cases e : g.get? n with
  | none => simp
  | some s => exact h.sets n s e

theorem GraphWF.mem_keys {g : DirectedGraph} (h : GraphWF g) {n m : Str} (hm : m ∈ getSet g n) :
    n ∈ g.keys ∧ m ∈ g.keys := by
  obtain ⟨s, hs, hm⟩ := mem_getSet.mp hm
  exact ⟨GoMap.mem_keys_of_get? hs, h.closed n s hs m hm⟩

theorem graphWF_of {g : DirectedGraph} (h1 : g.WF) (h2 : ∀ n, (getSet g n).Nodup)
    (h3 : ∀ n m, m ∈ getSet g n → m ∈ g.keys) : GraphWF g := by
  refine ⟨h1, ?_, ?_⟩
  · intro n s hs; have := h2 n; simpa [getSet, hs] using this
  · intro n s hs m hm; exact h3 n m (mem_getSet.mpr ⟨s, hs, hm⟩)

theorem addEdge_keys (g : DirectedGraph) (a b x : Str) :
    x ∈ (addEdge g a b).keys ↔ x = a ∨ x = b ∨ x ∈ g.keys := by
  unfold addEdge
  cases e : g.get? a with
  | none =>
    simp only []
    split
    · rename_i h; rw [GoMap.has_iff, GoMap.mem_keys_set] at h
      rw [GoMap.mem_keys_set]
      constructor
      · tauto
      · rintro (h1 | rfl | h1) <;> tauto
    · rw [GoMap.mem_keys_set, GoMap.mem_keys_set]; tauto
  | some s =>
    simp only []
    split
    · rename_i h; rw [GoMap.has_iff, GoMap.mem_keys_set] at h
      rw [GoMap.mem_keys_set]
      constructor
      · tauto
      · rintro (h1 | rfl | h1) <;> tauto
    · rw [GoMap.mem_keys_set, GoMap.mem_keys_set]; tauto

theorem addEdge_getSet (g : DirectedGraph) (a b x : Str) :
    getSet (addEdge g a b) x = if a = x then NodeSet.add (getSet g a) b else getSet g x := by
  have key : ∀ g1 : DirectedGraph, getSet (if g1.has b then g1 else g1.set b []) x = getSet g1 x := by
    intro g1; split
    · rfl
    · rename_i h
      rw [getSet_set]; split
      · rename_i e; subst e
        rw [getSet_of_not_mem (fun hk => h (GoMap.has_iff.mpr hk))]
      · rfl
  unfold addEdge
  cases e : g.get? a with
  | none =>
    simp only []
    rw [key, getSet_set]
    have : getSet g a = [] := by simp [getSet, e]
    rw [this]; rfl
  | some s =>
    simp only []
    rw [key, getSet_set]
    have : getSet g a = s := by simp [getSet, e]
    rw [this]

theorem addEdge_wf {g : DirectedGraph} (h : g.WF) (a b : Str) : (addEdge g a b).WF := by
  unfold addEdge
  cases e : g.get? a with
  | none => simp only []; split
            · exact h.set _ _
            · exact (h.set _ _).set _ _
  | some s => simp only []; split
              · exact h.set _ _
              · exact (h.set _ _).set _ _

theorem Represents.addEdge {g : DirectedGraph} {G : Digraph} (h : Represents g G) (a b : Str) :
    Represents (addEdge g a b) (G.apply (.addEdge a b)) := by
  have hedges : ∀ n m, m ∈ getSet (Dag.addEdge g a b) n ↔ (n, m) ∈ insert (a, b) G.edges := by
    intro n m
    rw [addEdge_getSet]
    split
    · rename_i e; subst e
      rw [NodeSet.mem_add, h.edges]; simp
    · rename_i e
      rw [h.edges]
      simp only [Finset.mem_insert, Prod.mk.injEq]
      constructor
      · tauto
      · rintro (⟨rfl, _⟩ | h)
        · exact absurd rfl e
        · exact h
  refine ⟨graphWF_of (addEdge_wf h.wf.wf a b) ?_ ?_, ?_, hedges⟩
  · intro n; rw [addEdge_getSet]; split
    · exact NodeSet.nodup_add (h.wf.nodup_getSet a) b
    · exact h.wf.nodup_getSet n
  · intro n m hm
    rw [addEdge_keys]
    rw [hedges] at hm
    simp only [Finset.mem_insert, Prod.mk.injEq] at hm
    rcases hm with ⟨_, rfl⟩ | hm
    · tauto
    · exact Or.inr (Or.inr (h.wf.mem_keys ((h.edges n m).mpr hm)).2)
  · intro n; rw [addEdge_keys, h.nodes]; simp [Digraph.apply]

theorem removeEdge_keys (g : DirectedGraph) (a b x : Str) :
    x ∈ (removeEdge g a b).keys ↔ x ∈ g.keys := by
  unfold removeEdge
  cases e : g.get? a with
  | none => rfl
  | some s =>
    simp only [GoMap.mem_keys_set]
    constructor
    · rintro (rfl | h)
      · exact GoMap.mem_keys_of_get? e
      · exact h
    · exact Or.inr

theorem removeEdge_wf {g : DirectedGraph} (h : g.WF) (a b : Str) : (removeEdge g a b).WF := by
  unfold removeEdge
  cases e : g.get? a with
  | none => exact h
  | some s => exact h.set _ _

theorem removeEdge_getSet (g : DirectedGraph) (a b x : Str) :
    getSet (removeEdge g a b) x = if a = x then NodeSet.remove (getSet g a) b else getSet g x := by
  unfold removeEdge
  cases e : g.get? a with
  | none =>
    simp only []
    split
    · rename_i h; subst h; simp [getSet, e, NodeSet.remove]
    · rfl
  | some s =>
    simp only [getSet_set]
    have : getSet g a = s := by simp [getSet, e]
    rw [this]

theorem Represents.removeEdge {g : DirectedGraph} {G : Digraph} (h : Represents g G) (a b : Str) :
    Represents (removeEdge g a b) (G.apply (.removeEdge a b)) := by
  have hedges : ∀ n m, m ∈ getSet (Dag.removeEdge g a b) n ↔ (n, m) ∈ G.edges.erase (a, b) := by
    intro n m
    rw [removeEdge_getSet]
    split
    · rename_i e; subst e
      rw [NodeSet.mem_remove, h.edges]; simp; tauto
    · rename_i e
      rw [h.edges]; simp only [Finset.mem_erase, ne_eq, Prod.mk.injEq]
      constructor
      · intro hh; exact ⟨fun hc => e hc.1.symm, hh⟩
      · exact fun hh => hh.2
  refine ⟨graphWF_of (removeEdge_wf h.wf.wf a b) ?_ ?_, ?_, hedges⟩
  · intro n; rw [removeEdge_getSet]; split
    · exact NodeSet.nodup_remove (h.wf.nodup_getSet a) b
    · exact h.wf.nodup_getSet n
  · intro n m hm
    rw [removeEdge_keys]
    rw [hedges] at hm
    exact (h.wf.mem_keys ((h.edges n m).mpr (Finset.mem_of_mem_erase hm))).2
  · intro n; rw [removeEdge_keys, h.nodes]; rfl

theorem removeInbound_keys (node : Str) (ns : List Str) (g : DirectedGraph) (x : Str) :
    x ∈ (removeInbound node ns g).keys ↔ x ∈ g.keys := by
  induction ns generalizing g with
  | nil => rfl
  | cons n ns ih => simp only [removeInbound, ih, removeEdge_keys]

theorem removeInbound_wf {g : DirectedGraph} (h : g.WF) (node : Str) (ns : List Str) :
    (removeInbound node ns g).WF := by
  induction ns generalizing g with
  | nil => exact h
  | cons n ns ih => exact ih (removeEdge_wf h n node)

theorem removeInbound_getSet (node : Str) (ns : List Str) (g : DirectedGraph) (x : Str) :
    getSet (removeInbound node ns g) x =
      if x ∈ ns then NodeSet.remove (getSet g x) node else getSet g x := by
  induction ns generalizing g with
  | nil => rfl
  | cons n ns ih =>
    simp only [removeInbound, ih, removeEdge_getSet, List.mem_cons]
    by_cases e : n = x
    · subst e
      simp only [if_true, true_or]
      split
      · simp [NodeSet.remove, List.filter_filter]
      · rfl
    · have e' : ¬ x = n := fun h => e h.symm
      simp [e, e']

theorem removeNode_getSet (g : DirectedGraph) (a x : Str) :
    getSet (removeNode g a) x = if a = x then [] else NodeSet.remove (getSet g x) a := by
  unfold removeNode
  rw [getSet_del, removeInbound_getSet]
  split
  · rfl
  · split
    · rfl
    · rename_i h; rw [getSet_of_not_mem h]; simp [NodeSet.remove]

theorem Represents.removeNode {g : DirectedGraph} {G : Digraph} (h : Represents g G) (a : Str) :
    Represents (removeNode g a) (G.apply (.removeNode a)) := by
  have hkeys : ∀ x, x ∈ (Dag.removeNode g a).keys ↔ x ∈ g.keys ∧ x ≠ a := by
    intro x; unfold Dag.removeNode; rw [GoMap.mem_keys_del, removeInbound_keys]
  have hedges : ∀ n m, m ∈ getSet (Dag.removeNode g a) n ↔
      (n, m) ∈ G.edges.filter (fun e => e.1 ≠ a ∧ e.2 ≠ a) := by
    intro n m
    rw [removeNode_getSet]
    split
    · rename_i e; subst e; simp
    · rename_i e
      rw [NodeSet.mem_remove, h.edges]
      simp only [Finset.mem_filter]
      constructor
      · rintro ⟨h1, h2⟩; exact ⟨h1, fun hc => e hc.symm, h2⟩
      · rintro ⟨h1, _, h2⟩; exact ⟨h1, h2⟩
  refine ⟨graphWF_of ((removeInbound_wf h.wf.wf a _).del a) ?_ ?_, ?_, hedges⟩
  · intro n; rw [removeNode_getSet]; split
    · simp
    · exact NodeSet.nodup_remove (h.wf.nodup_getSet n) a
  · intro n m hm
    rw [hkeys]
    rw [hedges, Finset.mem_filter] at hm
    exact ⟨(h.wf.mem_keys ((h.edges n m).mpr hm.1)).2, hm.2.2⟩
  · intro n; rw [hkeys, h.nodes]; simp [Digraph.apply, and_comm]

theorem Represents.addEdges {g : DirectedGraph} {G : Digraph} (h : Represents g G) (a : Str)
    (bs : List Str) : Represents (addEdges g a bs) (G.apply (.addEdges a bs)) := by
  induction bs generalizing g G with
  | nil => simpa [Dag.addEdges, Digraph.apply] using h
  | cons b bs ih =>
    have h1 := ih (h.addEdge a b)
    simp only [Dag.addEdges]
    refine ⟨h1.wf, ?_, ?_⟩
    · intro n
      rw [h1.nodes]
      simp only [Digraph.apply]
      by_cases hb : bs = []
      · subst hb; simp
      · simp [hb]
    · intro n m
      rw [h1.edges]
      simp only [Digraph.apply]
      by_cases hb : bs = []
      · subst hb; simp [Prod.ext_iff]
      · simp [hb, Prod.ext_iff]

theorem Represents.outDegree {g : DirectedGraph} {G : Digraph} (h : Represents g G) (n : Str) :
    outDegree g n = G.outDegree n := by
  unfold Dag.outDegree Digraph.outDegree
  rw [← List.toFinset_card_of_nodup (h.wf.nodup_getSet n)]
  refine Finset.card_bij (fun m _ => (n, m)) ?_ ?_ ?_
  · intro m hm; rw [List.mem_toFinset, h.edges] at hm; simp [hm]
  · intro a _ b _ e; exact (Prod.mk.inj e).2
  · rintro ⟨a, b⟩ hab
    rw [Finset.mem_filter] at hab
    obtain ⟨hab, rfl⟩ := hab
    exact ⟨b, by rw [List.mem_toFinset, h.edges]; exact hab, rfl⟩

end Verif.Dag
