import Verif.Dag.TSortLemmas

/-! Invariants of `DependencyGraph.Next` over arbitrary call histories. -/

namespace Verif.Dag
open Verif Spec Relation

theorem popReady_spec (r : Str → Bool) (l : List Str) :
    l = (popReady r l).1 ++ (popReady r l).2 ∧ (∀ x ∈ (popReady r l).1, r x = true) ∧
    (∀ h t, (popReady r l).2 = h :: t → r h = false) := by
  induction l with
  | nil => simp [popReady]
  | cons h t ih =>
    simp only [popReady]
    by_cases hr : r h = true
    · simp only [hr, if_true]
      obtain ⟨h1, h2, h3⟩ := ih
      refine ⟨by simp [← h1], ?_, h3⟩
      intro x hx
      rcases List.mem_cons.mp hx with rfl | hx
      · exact hr
      · exact h2 x hx
    · simp only [hr, if_false, Bool.false_eq_true]
      refine ⟨rfl, by simp, ?_⟩
      rintro a b ⟨⟩; simpa using hr

theorem sweep_spec (r : Str → Bool) (l : List Str) :
    ((sweep r l).1 ++ (sweep r l).2).Perm l ∧ (∀ x ∈ (sweep r l).1, r x = true) ∧
    ((sweep r l).2).Sublist l := by
  fun_induction sweep r l with
  | case1 => simp
  | case2 h => simp
  | case3 h p rest hr e r' he ih =>
    obtain ⟨h1, h2, h3⟩ := ih
    simp only [he] at h1 h2 h3
    refine ⟨?_, ?_, ?_⟩
    · refine List.Perm.trans ?_ (List.Perm.swap h p rest)
      simp only [List.cons_append]
      refine List.Perm.cons _ ?_
      exact List.perm_middle.trans (h1.cons _)
    · intro x hx
      rcases List.mem_cons.mp hx with rfl | hx
      · exact hr
      · exact h2 x hx
    · exact (h3.trans (List.sublist_cons_self _ _)).cons_cons _
  | case4 h p rest hr e r' he ih =>
    obtain ⟨h1, h2, h3⟩ := ih
    simp only [he] at h1 h2 h3
    refine ⟨?_, h2, h3.cons_cons _⟩
    exact List.perm_middle.trans (h1.cons _)

/-- At least half of the startable tasks behind the head are found. -/
theorem sweep_half (r : Str → Bool) (l : List Str) :
    (l.tail.filter r).length ≤ 2 * (sweep r l).1.length := by
  fun_induction sweep r l with
  | case1 => simp
  | case2 h => simp
  | case3 h p rest hr e r' he ih =>
    simp only [he] at ih
    simp only [List.tail_cons, List.filter_cons, hr, if_true, List.length_cons]
    cases rest with
    | nil => simp; omega
    | cons y t =>
      simp only [List.tail_cons] at ih
      by_cases hy : r y = true
      · simp only [List.filter_cons, hy, if_true, List.length_cons]; omega
      · simp only [List.filter_cons, hy, if_false, Bool.false_eq_true]; omega
  | case4 h p rest hr e r' he ih =>
    simp only [he] at ih
    simpa [List.filter_cons, hr] using ih

/-- A startable task that stays behind directly followed a task that was found. -/
theorem sweep_skipped (r : Str → Bool) (l : List Str) (hnd : l.Nodup) (x : Str)
    (hx : x ∈ (sweep r l).2) (hr : r x = true) (hhead : l.head? ≠ some x) :
    ∃ y l1 l2, y ∈ (sweep r l).1 ∧ l = l1 ++ y :: x :: l2 := by
  fun_induction sweep r l with
  | case1 => simp at hx
  | case2 h => simp at hx; subst hx; simp at hhead
  | case3 h p rest hrp e r' he ih =>
    simp only [he] at ih
    have hxh : x ≠ h := fun e => hhead (by simp [e])
    have hx' : x ∈ r' := by
      rcases List.mem_cons.mp hx with e | e
      · exact absurd e hxh
      · exact e
    by_cases hh : rest.head? = some x
    · cases rest with
      | nil => simp at hh
      | cons a t =>
        simp at hh; subst hh
        exact ⟨p, [h], t, by simp, rfl⟩
    · obtain ⟨y, l1, l2, a, b⟩ := ih (by
        have := hnd; simp only [List.nodup_cons] at this; exact this.2.2) hx' hh
      exact ⟨y, h :: p :: l1, l2, List.mem_cons_of_mem _ a, by simp [b]⟩
  | case4 h p rest hrp e r' he ih =>
    simp only [he] at ih
    have hxh : x ≠ h := fun e => hhead (by simp [e])
    have hx' : x ∈ r' := by
      rcases List.mem_cons.mp hx with e | e
      · exact absurd e hxh
      · exact e
    obtain ⟨y, l1, l2, a, b⟩ := ih (by
        have := hnd; simp only [List.nodup_cons] at this ⊢; exact this.2) hx' (by
        intro e; simp at e; subst e; exact hrp hr)
    exact ⟨y, h :: l1, l2, a, by simp [b]⟩

theorem markCompleted_getSet (c : Str) (ids : List Str) (deps : GoMap Str NodeSet) (x : Str) :
    getSet (markCompleted c ids deps) x =
      if x ∈ ids then NodeSet.remove (getSet deps x) c else getSet deps x := by
  induction ids generalizing deps with
  | nil => rfl
  | cons i ids ih =>
    simp only [markCompleted, ih]
    have h1 : getSet (dropDep deps i c) x =
        if i = x then NodeSet.remove (getSet deps x) c else getSet deps x := by
      unfold dropDep
      cases e : deps.get? i with
      | none =>
        simp only []
        split
        · rename_i h; subst h; simp [getSet, e, NodeSet.remove]
        · rfl
      | some s =>
        simp only [getSet_set]
        split
        · rename_i h; subst h; simp [getSet, e]
        · rfl
    rw [h1]
    by_cases e : i = x
    · subst e
      simp only [if_true, List.mem_cons, true_or]
      split
      · simp [NodeSet.remove, List.filter_filter]
      · rfl
    · have e' : ¬ x = i := fun h => e h.symm
      simp [e, e']

theorem addDep_spec (n : Str) (g : DepGraph) (m : Str) :
    (∀ a b, b ∈ getSet (addDep n g m).dependencies a ↔
      b ∈ getSet g.dependencies a ∨ (a = n ∧ b = m)) ∧
    (∀ a b, b ∈ getSet (addDep n g m).dependents a ↔
      b ∈ getSet g.dependents a ∨ (a = m ∧ b = n)) ∧
    (addDep n g m).pending = g.pending := by
  refine ⟨?_, ?_, rfl⟩
  · intro a b
    simp only [addDep, getSet_set]
    split
    · rename_i h; subst h; rw [NodeSet.mem_add]; tauto
    · rename_i h
      have : ¬ a = n := fun e => h e.symm
      simp [this]
  · intro a b
    have key : ∀ a, getSet (ensureSet g.dependents m) a = getSet g.dependents a := by
      intro a
      unfold ensureSet
      cases e : g.dependents.get? m with
      | none =>
        simp only [getSet_set]; split
        · rename_i h; subst h; simp [getSet, e]
        · rfl
      | some s => rfl
    simp only [addDep, getSet_set, key]
    split
    · rename_i h; subst h; rw [NodeSet.mem_add]; tauto
    · rename_i h
      have : ¬ a = m := fun e => h e.symm
      simp [this]

theorem foldl_addDep_spec (n : Str) (edges : List Str) (g : DepGraph) :
    (∀ a b, b ∈ getSet (edges.foldl (addDep n) g).dependencies a ↔
      b ∈ getSet g.dependencies a ∨ (a = n ∧ b ∈ edges)) ∧
    (∀ a b, b ∈ getSet (edges.foldl (addDep n) g).dependents a ↔
      b ∈ getSet g.dependents a ∨ (a ∈ edges ∧ b = n)) ∧
    (edges.foldl (addDep n) g).pending = g.pending := by
  induction edges generalizing g with
  | nil => simp
  | cons m ms ih =>
    obtain ⟨h1, h2, h3⟩ := ih (addDep n g m)
    obtain ⟨a1, a2, a3⟩ := addDep_spec n g m
    simp only [List.foldl_cons]
    refine ⟨?_, ?_, h3.trans a3⟩
    · intro a b; rw [h1, a1]; simp only [List.mem_cons]; tauto
    · intro a b; rw [h2, a2]; simp only [List.mem_cons]; tauto

theorem fillDeps_spec (rest : List (Str × NodeSet)) (g : DepGraph)
    (hnd : (rest.map Prod.fst).Nodup) (hdis : ∀ n ∈ rest.map Prod.fst, getSet g.dependencies n = []) :
    (∀ a b, b ∈ getSet (fillDeps rest g).dependencies a ↔
      b ∈ getSet g.dependencies a ∨ ∃ s, (a, s) ∈ rest ∧ b ∈ s) ∧
    (∀ a b, b ∈ getSet (fillDeps rest g).dependents a ↔
      b ∈ getSet g.dependents a ∨ ∃ s, (b, s) ∈ rest ∧ a ∈ s) ∧
    (fillDeps rest g).pending = g.pending := by
  induction rest generalizing g with
  | nil => simp [fillDeps]
  | cons p rest ih =>
    obtain ⟨n, edges⟩ := p
    simp only [List.map_cons, List.nodup_cons] at hnd
    set g1 : DepGraph := { g with dependencies := g.dependencies.set n [] } with hg1
    obtain ⟨f1, f2, f3⟩ := foldl_addDep_spec n edges g1
    have hg1d : ∀ a, getSet g1.dependencies a = getSet g.dependencies a := by
      intro a; simp only [hg1, getSet_set]; split
      · rename_i h; subst h; rw [hdis n (by simp)]
      · rfl
    obtain ⟨h1, h2, h3⟩ := ih (edges.foldl (addDep n) g1) hnd.2 (by
      intro x hx
      have hxn : x ≠ n := fun e => hnd.1 (e ▸ hx)
      rw [List.eq_nil_iff_forall_not_mem]
      intro b hb
      rw [f1, hg1d, hdis x (by simp only [List.map_cons, List.mem_cons]; exact Or.inr hx)] at hb
      simp [hxn] at hb)
    simp only [fillDeps]
    refine ⟨?_, ?_, h3.trans f3⟩
    · intro a b
      rw [h1, f1, hg1d]
      simp only [List.mem_cons, Prod.mk.injEq]
      constructor
      · rintro ((h | ⟨rfl, h⟩) | ⟨s, h, hb⟩)
        · exact Or.inl h
        · exact Or.inr ⟨edges, Or.inl ⟨rfl, rfl⟩, h⟩
        · exact Or.inr ⟨s, Or.inr h, hb⟩
      · rintro (h | ⟨s, (⟨rfl, rfl⟩ | h), hb⟩)
        · exact Or.inl (Or.inl h)
        · exact Or.inl (Or.inr ⟨rfl, hb⟩)
        · exact Or.inr ⟨s, h, hb⟩
    · intro a b
      rw [h2, f2]
      simp only [List.mem_cons, Prod.mk.injEq]
      constructor
      · rintro ((h | ⟨h, rfl⟩) | ⟨s, h, hb⟩)
        · exact Or.inl h
        · exact Or.inr ⟨edges, Or.inl ⟨rfl, rfl⟩, h⟩
        · exact Or.inr ⟨s, Or.inr h, hb⟩
      · rintro (h | ⟨s, (⟨rfl, rfl⟩ | h), hb⟩)
        · exact Or.inl (Or.inl h)
        · exact Or.inl (Or.inr ⟨hb, rfl⟩)
        · exact Or.inr ⟨s, h, hb⟩

/-- Invariant of a dependency graph built from `nodes` after the completions `done` were reported
and the tasks `emitted` returned. -/
structure DepInv (nodes : GoMap Str (List Str)) (g : DepGraph) (done emitted : List Str) : Prop where
  deps : ∀ n m, m ∈ getSet g.dependencies n ↔ Edge nodes n m ∧ m ∉ done
  dents : ∀ m n, n ∈ getSet g.dependents m ↔ Edge nodes n m
  part : (emitted ++ g.pending).Perm nodes.keys
  safe : ∀ x ∈ emitted, ∀ m, Edge nodes x m → m ∈ done
  order : ∃ order, IsTopoOrder nodes.keys (Edge nodes) order ∧ g.pending.Sublist order

theorem newDependencyGraph_cases {nodes : GoMap Str (List Str)} (wf : nodes.WF) :
    (∃ n m, newDependencyGraph nodes = some (.error (.invalidEdge n m)) ∧ Edge nodes n m ∧
      m ∉ nodes.keys) ∨
    (∃ c, newDependencyGraph nodes = some (.error (.circular c)) ∧ Closed nodes ∧
      ¬ Acyclic (Edge nodes) ∧ (IsReportedCycle (Edge nodes) c ∨ c = [] ∧ TransGen (Edge nodes) [] [])) ∨
    (∃ g, newDependencyGraph nodes = some (.ok g) ∧ Closed nodes ∧ Acyclic (Edge nodes) ∧
      DepInv nodes g [] []) := by
  unfold newDependencyGraph
  cases h : newDirectedGraph nodes with
  | error e =>
    obtain ⟨n, m, h1, h2, rfl⟩ := newDirectedGraph_err wf h
    exact Or.inl ⟨n, m, rfl, h1, h2⟩
  | ok dg =>
    obtain ⟨h1, h2, h3, h4⟩ := newDirectedGraph_ok wf h
    have hE : GEdge dg = Edge nodes := by
      funext n m; simp only [GEdge, eq_iff_iff]; rw [mem_getSet]; exact h4 n m
    rcases tsort_spec h2 with ⟨l, e, ht⟩ | ⟨c, e, ⟨x, hx⟩, hc⟩
    · simp only [e]
      rw [h1, hE] at ht
      have hac := IsTopoOrder.acyclic ht (fun n m ⟨es, hes, _⟩ => GoMap.mem_keys_of_get? hes)
      refine Or.inr (Or.inr ⟨_, rfl, h3, hac, ?_⟩)
      obtain ⟨f1, f2, f3⟩ := fillDeps_spec dg { dependencies := [], dependents := [], pending := l }
        h2.wf (by intro n _; rfl)
      have hmem : ∀ n m, (∃ s, (n, s) ∈ dg ∧ m ∈ s) ↔ Edge nodes n m := by
        intro n m; rw [← h4]
        constructor <;> rintro ⟨s, hs, hm⟩
        · exact ⟨s, GoMap.get?_of_mem h2.wf hs, hm⟩
        · exact ⟨s, GoMap.mem_of_get? hs, hm⟩
      refine ⟨?_, ?_, ?_, by simp, ⟨l, ht, by rw [f3]⟩⟩
      · intro n m; rw [f1, hmem]; simp [getSet]
      · intro m n; rw [f2, hmem]; simp [getSet]
      · rw [f3]; simp only [List.nil_append]
        exact (List.perm_ext_iff_of_nodup ht.nodup wf).mpr ht.complete
    · simp only [e]
      rw [hE] at hx hc
      exact Or.inr (Or.inl ⟨c, rfl, h3, fun ha => ha x hx, hc⟩)

theorem next_deps {nodes : GoMap Str (List Str)} {g : DepGraph} {done emitted : List Str}
    (h : DepInv nodes g done emitted) (c n m : Str) :
    m ∈ getSet (markCompleted c (getSet g.dependents c) g.dependencies) n ↔
      Edge nodes n m ∧ m ∉ done ++ [c] := by
  rw [markCompleted_getSet]
  split
  · rename_i hn; rw [h.dents] at hn
    rw [NodeSet.mem_remove, h.deps]; simp; tauto
  · rename_i hn; rw [h.dents] at hn
    rw [h.deps]
    simp only [List.mem_append, List.mem_singleton, not_or]
    constructor
    · rintro ⟨h1, h2⟩
      exact ⟨h1, h2, fun e => hn (e ▸ h1)⟩
    · rintro ⟨h1, h2, _⟩; exact ⟨h1, h2⟩

/-- The test used by `Next`, in terms of the input. -/
theorem next_isReady {nodes : GoMap Str (List Str)} {g : DepGraph} {done emitted : List Str}
    (h : DepInv nodes g done emitted) (c x : Str) :
    decide (NodeSet.size (getSet (markCompleted c (getSet g.dependents c) g.dependencies) x) < 1)
      = true ↔ ∀ m, Edge nodes x m → m ∈ done ++ [c] := by
  rw [decide_eq_true_iff]
  simp only [NodeSet.size, Nat.lt_one_iff, List.length_eq_zero_iff,
    List.eq_nil_iff_forall_not_mem, next_deps h]
  constructor
  · intro hh m hm
    by_contra hc; exact hh m ⟨hm, hc⟩
  · rintro hh m ⟨h1, h2⟩; exact h2 (hh m h1)

theorem next_inv {nodes : GoMap Str (List Str)} {g : DepGraph} {done emitted : List Str}
    (h : DepInv nodes g done emitted) (c : Str) :
    DepInv nodes (g.next c).1 (done ++ [c]) (emitted ++ (g.next c).2) ∧
    ((g.next c).2 ++ (g.next c).1.pending).Perm g.pending ∧
    (∀ x ∈ (g.next c).2, ∀ m, Edge nodes x m → m ∈ done ++ [c]) := by
  set r : Str → Bool := fun id => decide (NodeSet.size (getSet
    (markCompleted c (getSet g.dependents c) g.dependencies) id) < 1) with hrdef
  obtain ⟨p1, p2, p3⟩ := popReady_spec r g.pending
  obtain ⟨s1, s2, s3⟩ := sweep_spec r (popReady r g.pending).2
  have he : (g.next c).2 = (popReady r g.pending).1 ++ (sweep r (popReady r g.pending).2).1 := rfl
  have hp : (g.next c).1.pending = (sweep r (popReady r g.pending).2).2 := rfl
  have hpart : ((g.next c).2 ++ (g.next c).1.pending).Perm g.pending := by
    rw [he, hp, List.append_assoc]
    conv_rhs => rw [p1]
    exact s1.append_left _
  have hready : ∀ x ∈ (g.next c).2, ∀ m, Edge nodes x m → m ∈ done ++ [c] := by
    intro x hx
    have : r x = true := by
      rw [he] at hx
      rcases List.mem_append.mp hx with hx | hx
      · exact p2 x hx
      · exact s2 x hx
    exact (next_isReady h c x).mp this
  refine ⟨⟨?_, h.dents, ?_, ?_, ?_⟩, hpart, hready⟩
  · intro n m; exact next_deps h c n m
  · rw [List.append_assoc]; exact (hpart.append_left _).trans h.part
  · intro x hx m hm
    rcases List.mem_append.mp hx with hx | hx
    · exact List.mem_append_left _ (h.safe x hx m hm)
    · exact hready x hx m hm
  · obtain ⟨order, ho, hsub⟩ := h.order
    refine ⟨order, ho, ?_⟩
    rw [hp]
    refine (s3.trans ?_).trans hsub
    conv_rhs => rw [p1]
    exact List.sublist_append_right _ _

theorem next_half {nodes : GoMap Str (List Str)} {g : DepGraph} {done emitted : List Str}
    (h : DepInv nodes g done emitted) (c : Str) (l : List Str) (hl : l.Nodup)
    (hsub : ∀ x ∈ l, x ∈ g.pending ∧ ∀ m, Edge nodes x m → m ∈ done ++ [c]) :
    l.length ≤ 2 * (g.next c).2.length := by
  set r : Str → Bool := fun id => decide (NodeSet.size (getSet
    (markCompleted c (getSet g.dependents c) g.dependencies) id) < 1) with hrdef
  obtain ⟨p1, p2, p3⟩ := popReady_spec r g.pending
  have hs := sweep_half r (popReady r g.pending).2
  have he : (g.next c).2 = (popReady r g.pending).1 ++ (sweep r (popReady r g.pending).2).1 := rfl
  have hle : l.length ≤ (g.pending.filter r).length := by
    refine (List.subperm_of_subset hl ?_).length_le
    intro x hx
    obtain ⟨h1, h2⟩ := hsub x hx
    exact List.mem_filter.mpr ⟨h1, (next_isReady h c x).mpr h2⟩
  have hf : (g.pending.filter r).length ≤
      (popReady r g.pending).1.length + ((popReady r g.pending).2.tail.filter r).length := by
    conv_lhs => rw [p1]
    rw [List.filter_append, List.length_append]
    refine Nat.add_le_add (List.length_filter_le _ _) ?_
    cases e : (popReady r g.pending).2 with
    | nil => simp
    | cons a t => simp [p3 a t e]
  rw [he, List.length_append]; omega

theorem next_progress {nodes : GoMap Str (List Str)} {g : DepGraph} {done emitted : List Str}
    (h : DepInv nodes g done emitted) (c x : Str) (hx : x ∈ g.pending)
    (hr : ∀ m, Edge nodes x m → m ∈ done ++ [c]) : (g.next c).2 ≠ [] := by
  have := next_half h c [x] (by simp) (by simp; exact ⟨hx, by simpa using hr⟩)
  intro e; rw [e] at this; simp at this

/-- After a call, the first unreleased task is still blocked. -/
theorem next_head_blocked {nodes : GoMap Str (List Str)} {g : DepGraph} {done emitted : List Str}
    (h : DepInv nodes g done emitted) (c x : Str) (t : List Str)
    (hp : (g.next c).1.pending = x :: t) : ∃ m, Edge nodes x m ∧ m ∉ done ++ [c] := by
  set r : Str → Bool := fun id => decide (NodeSet.size (getSet
    (markCompleted c (getSet g.dependents c) g.dependencies) id) < 1) with hrdef
  obtain ⟨p1, p2, p3⟩ := popReady_spec r g.pending
  have hp' : (g.next c).1.pending = (sweep r (popReady r g.pending).2).2 := rfl
  have hhead : ∀ l : List Str, (sweep r l).2.head? = l.head? := by
    intro l
    match l with
    | [] => rfl
    | [_] => rfl
    | a :: b :: l => simp only [sweep]; split <;> rfl
  have hx : (popReady r g.pending).2.head? = some x := by
    rw [← hhead, ← hp', hp]; rfl
  cases e : (popReady r g.pending).2 with
  | nil => rw [e] at hx; simp at hx
  | cons a l =>
    rw [e] at hx; simp at hx; subst hx
    have := p3 a l e
    by_contra hc
    have ht : r a = true := (next_isReady h c a).mpr (by
      intro m hm; by_contra hn; exact hc ⟨m, hm, hn⟩)
    rw [this] at ht; cases ht

/-- The first unreleased task depends on released tasks only. -/
theorem head_deps_emitted {nodes : GoMap Str (List Str)} {g : DepGraph} {done emitted : List Str}
    (h : DepInv nodes g done emitted) {x : Str} {t : List Str} (hp : g.pending = x :: t) (m : Str)
    (hm : Edge nodes x m) (hclosed : Closed nodes) : m ∈ emitted := by
  have hmk : m ∈ nodes.keys := hclosed x m hm
  have hxk : x ∈ nodes.keys := by obtain ⟨es, h1, _⟩ := hm; exact GoMap.mem_keys_of_get? h1
  rcases List.mem_append.mp (h.part.mem_iff.mpr hmk) with hh | hh
  · exact hh
  · exfalso
    obtain ⟨order, ho, hsub⟩ := h.order
    obtain ⟨l1, l2, l3, e⟩ := ho.before x m hxk hm
    have hnd := ho.nodup
    have hmx : m ≠ x := by
      rintro rfl
      rw [e] at hnd
      exact (List.nodup_append.mp hnd).2.2 m (by simp) m (by simp) rfl
    rw [hp] at hh hsub
    have hmt : m ∈ t := by
      rcases List.mem_cons.mp hh with e | e
      · exact absurd e hmx
      · exact e
    -- `[x, m]` is a sublist of `order`, but `order` also has `m` before `x`
    have hxm : [x, m].Sublist order :=
      ((List.singleton_sublist.mpr hmt).cons_cons x).trans hsub
    have hpw : order.Pairwise (fun a b => ¬ (a = x ∧ b = m)) := by
      rw [e] at hnd ⊢
      rw [List.pairwise_append]
      rw [List.nodup_append] at hnd
      obtain ⟨n1, n2, n3⟩ := hnd
      refine ⟨?_, ?_, ?_⟩
      · rw [List.pairwise_iff_forall_sublist]
        rintro a b hab ⟨rfl, rfl⟩
        exact n3 a (hab.subset (by simp)) a (by simp) rfl
      · rw [List.pairwise_iff_forall_sublist]
        rintro a b hab ⟨rfl, rfl⟩
        exact n3 b (by simp) b (hab.subset (by simp)) rfl
      · rintro a ha b hb ⟨rfl, rfl⟩
        exact n3 a ha a (by simp) rfl
    rw [List.pairwise_iff_forall_sublist] at hpw
    exact hpw hxm ⟨rfl, rfl⟩

/-- A history of `Next` calls: final graph and everything returned, call by call. -/
def DepGraph.run (g : DepGraph) : List Str → DepGraph × List (List Str)
  | [] => (g, [])
  | c :: cs =>
    let (g1, out) := g.next c
    let (g2, outs) := g1.run cs
    (g2, out :: outs)

theorem run_inv {nodes : GoMap Str (List Str)} {g : DepGraph} {done emitted : List Str}
    (h : DepInv nodes g done emitted) (cs : List Str) :
    DepInv nodes (g.run cs).1 (done ++ cs) (emitted ++ (g.run cs).2.flatten) := by
  induction cs generalizing g done emitted with
  | nil => simpa [DepGraph.run] using h
  | cons c cs ih =>
    have := ih (next_inv h c).1
    simpa [DepGraph.run, List.append_assoc] using this

theorem run_append (g : DepGraph) (cs ds : List Str) :
    (g.run (cs ++ ds)).1 = ((g.run cs).1.run ds).1 ∧
    (g.run (cs ++ ds)).2 = (g.run cs).2 ++ ((g.run cs).1.run ds).2 := by
  induction cs generalizing g with
  | nil => simp [DepGraph.run]
  | cons c cs ih =>
    obtain ⟨h1, h2⟩ := ih (g.next c).1
    simp [DepGraph.run, h1, h2]

end Verif.Dag
