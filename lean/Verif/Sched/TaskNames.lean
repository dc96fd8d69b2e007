import Verif.Sched.Same

/-!
# C162: the names of the nodes of a graph matter only through their order
-/

namespace Verif.Dag
open Verif Spec

/-! ## Specification -/

/-- The second graph is the first one with its nodes renamed by `f`, which keeps the alphabetical order of the names, and
which names are empty.  The order in which nodes and edges are listed is free. -/
structure Translated (f : Str → Str) (nodes nodes' : GoMap Str (List Str)) : Prop where
  ascending : ∀ a ∈ nodes.keys, ∀ b ∈ nodes.keys, Str.lt a b = true → Str.lt (f a) (f b) = true
  nameless : ∀ a ∈ nodes.keys, f a = [] ↔ a = []
  keys : (nodes.keys.map f).Perm nodes'.keys
  edges : ∀ n' m', Edge nodes' n' m' ↔ ∃ n m, Edge nodes n m ∧ f n = n' ∧ f m = m'

/-! ## The order of the nodes -/

variable {f : Str → Str} {K : Str → Prop}

theorem lt_of_not_le {a b : Str} (h : ¬ Str.Le b a) : Str.lt a b = true := by
  simpa [Str.lt, Str.Le] using h

theorem le_of_lt {a b : Str} (h : Str.lt a b = true) : Str.Le a b := by
  rcases Str.le_total a b with g | g
  · exact g
  · simp [Str.lt, g] at h

theorem ne_of_lt {a b : Str} (h : Str.lt a b = true) : a ≠ b := by
  rintro rfl
  simp [Str.lt, Str.le_refl] at h

theorem inj_of_ascending {l : List Str} (h : ∀ a ∈ l, ∀ b ∈ l, Str.lt a b = true → Str.lt (f a) (f b) = true) :
    ∀ a ∈ l, ∀ b ∈ l, f a = f b → a = b := by
  intro a ha b hb e
  by_contra hne
  by_cases hle : Str.Le b a
  · by_cases hle' : Str.Le a b
    · exact hne (Str.le_antisymm hle' hle)
    · exact ne_of_lt (h b hb a ha (lt_of_not_le hle')) e.symm
  · exact ne_of_lt (h a ha b hb (lt_of_not_le hle)) e

theorem sortStrs_map {l : List Str}
    (h : ∀ a ∈ l, ∀ b ∈ l, Str.lt a b = true → Str.lt (f a) (f b) = true) :
    sortStrs (l.map f) = (sortStrs l).map f := by
  refine eq_of_perm_sorted ((sortStrs_perm _).trans ((sortStrs_perm l).symm.map f)) (sortStrs_sorted _) ?_
  rw [List.pairwise_map]
  refine (sortStrs_sorted l).imp_of_mem ?_
  intro a b ha hb hab
  by_cases e : a = b
  · rw [e]; exact Str.le_refl _
  · refine le_of_lt (h a (mem_sortStrs.1 ha) b (mem_sortStrs.1 hb) (lt_of_not_le ?_))
    intro g
    exact e (Str.le_antisymm hab g)

/-! ## The search -/

theorem mem_map_on (hi : ∀ a b, K a → K b → f a = f b → a = b) {l : List Str} (hl : ∀ x ∈ l, K x) {n : Str} (hn : K n) :
    f n ∈ l.map f ↔ n ∈ l := by
  constructor
  · intro h
    obtain ⟨x, hx, e⟩ := List.mem_map.1 h
    rw [← hi x n (hl x hx) hn e]; exact hx
  · exact List.mem_map_of_mem

theorem erase_map_on (hi : ∀ a b, K a → K b → f a = f b → a = b) {n : Str} (hn : K n) :
    ∀ {l : List Str}, (∀ x ∈ l, K x) → (l.map f).erase (f n) = (l.erase n).map f
  | [], _ => rfl
  | x :: l, hl => by
    rw [List.map_cons]
    by_cases e : x = n
    · subst e; simp
    · have e' : f x ≠ f n := fun g => e (hi x n (hl x (by simp)) hn g)
      rw [List.erase_cons_tail (by simpa using e'), List.erase_cons_tail (by simpa using e),
        erase_map_on hi hn (fun y hy => hl y (by simp [hy])), List.map_cons]

/-- The state of the search in the renamed graph. -/
def Visitor.ren (f : Str → Str) (v : Visitor) : Visitor :=
  { visited := v.visited.map f, visiting := v.visiting.map f, cycle := v.cycle.map (List.map f),
    sorted := v.sorted.map f }

/-- The start of a cycle in the renamed graph. -/
def startRen (f : Str → Str) (s : Str) : Str := if s = [] then [] else f s

/-- Only known names are visited. -/
structure Within (K : Str → Prop) (v : Visitor) : Prop where
  visited : ∀ x ∈ v.visited, K x
  visiting : ∀ x ∈ v.visiting, K x

/-- What the visit of one node does in the two graphs. -/
def VisitRen (f : Str → Str) (K : Str → Prop) (rec rec' : Str → Visitor → Option (Visitor × Str)) : Prop :=
  ∀ m, K m → ∀ v, Within K v →
    rec' (f m) (v.ren f) = (rec m v).map (fun r => (r.1.ren f, startRen f r.2)) ∧
    ∀ r, rec m v = some r → Within K r.1 ∧ (r.2 = [] ∨ K r.2)

theorem visitEdges_ren (hi : ∀ a b, K a → K b → f a = f b → a = b) (h0 : ∀ a, K a → (f a = [] ↔ a = []))
    {rec rec' : Str → Visitor → Option (Visitor × Str)} (hr : VisitRen f K rec rec') {n : Str} (hn : K n) :
    ∀ (es : List Str), (∀ m ∈ es, K m) → ∀ v, Within K v →
      visitEdges rec' (f n) (es.map f) (v.ren f) = (visitEdges rec n es v).map (fun r => (r.1.ren f, startRen f r.2)) ∧
      ∀ r, visitEdges rec n es v = some r → Within K r.1 ∧ (r.2 = [] ∨ K r.2)
  | [], _, v, hv => by
    constructor
    · simp [visitEdges, Visitor.ren, startRen, erase_map_on hi hn hv.visiting]
    · intro r e
      simp only [visitEdges, Option.some.injEq] at e
      subst e
      refine ⟨⟨?_, fun x hx => hv.visiting x (List.mem_of_mem_erase hx)⟩, Or.inl rfl⟩
      intro x hx
      rcases List.mem_cons.1 hx with rfl | hx
      · exact hn
      · exact hv.visited x hx
  | m :: es, hes, v, hv => by
    obtain ⟨a, b⟩ := hr m (hes m (by simp)) v hv
    rw [List.map_cons]
    unfold visitEdges
    rw [a]
    cases e : rec m v with
    | none => simp
    | some r =>
      obtain ⟨v', s⟩ := r
      obtain ⟨hw, hs⟩ := b _ e
      simp only [Option.map_some]
      have hc : (v'.ren f).cycle = v'.cycle.map (List.map f) := rfl
      rw [hc]
      cases e2 : v'.cycle with
      | none =>
        simp only [Option.map_none]
        exact visitEdges_ren hi h0 hr hn es (fun x hx => hes x (by simp [hx])) v' hw
      | some c =>
        simp only [Option.map_some]
        by_cases hs0 : s = []
        · subst hs0
          refine ⟨by simp [startRen], ?_⟩
          intro r er
          simp only [ne_eq, not_true_eq_false, if_false, Option.some.injEq] at er
          subst er
          exact ⟨hw, Or.inl rfl⟩
        · have hk : K s := hs.resolve_left hs0
          have hf0 : f s ≠ [] := fun g => hs0 ((h0 s hk).1 g)
          have hse : startRen f s = f s := by simp [startRen, hs0]
          have hiff : f n = f s ↔ n = s := ⟨hi n s hn hk, fun g => by rw [g]⟩
          constructor
          · rw [hse, if_pos hf0, if_pos hs0]
            simp only [Option.map_some, hiff]
            by_cases hns : n = s
            · simp [hns, startRen, Visitor.ren]
            · simp [hns, startRen, Visitor.ren, hs0]
          · intro r er
            rw [if_pos hs0] at er
            simp only [Option.some.injEq] at er
            subst er
            refine ⟨⟨hw.visited, hw.visiting⟩, ?_⟩
            simp only
            split
            · exact Or.inl rfl
            · exact Or.inr hk

theorem visit_ren (hi : ∀ a b, K a → K b → f a = f b → a = b) (h0 : ∀ a, K a → (f a = [] ↔ a = []))
    {E E' : Str → List Str} (hE : ∀ a, K a → E' (f a) = (E a).map f) (hK : ∀ a, K a → ∀ m ∈ E a, K m) :
    ∀ fuel, VisitRen f K (visit E fuel) (visit E' fuel)
  | 0 => fun m _ v _ => by simp [visit]
  | fuel + 1 => by
    intro n hn v hv
    unfold visit
    have h1 : f n ∈ (v.ren f).visiting ↔ n ∈ v.visiting := mem_map_on hi hv.visiting hn
    have h2 : f n ∈ (v.ren f).visited ↔ n ∈ v.visited := mem_map_on hi hv.visited hn
    rw [hE n hn]
    by_cases a : n ∈ v.visiting
    · rw [if_pos a, if_pos (h1.2 a)]
      constructor
      · simp only [Option.map_some, Option.some.injEq, Prod.mk.injEq]
        constructor
        · unfold Visitor.ren
          cases v.cycle <;> simp
        · unfold startRen
          split
          · rename_i g; exact (h0 n hn).2 g
          · rfl
      · intro r e
        simp only [Option.some.injEq] at e
        subst e
        exact ⟨⟨hv.visited, hv.visiting⟩, Or.inr hn⟩
    · rw [if_neg a, if_neg (fun g => a (h1.1 g))]
      by_cases b : n ∈ v.visited
      · rw [if_pos b, if_pos (h2.2 b)]
        refine ⟨by simp [startRen], ?_⟩
        intro r e
        simp only [Option.some.injEq] at e
        subst e
        exact ⟨hv, Or.inl rfl⟩
      · rw [if_neg b, if_neg (fun g => b (h2.1 g))]
        refine visitEdges_ren hi h0 (visit_ren hi h0 hE hK fuel) hn (E n) (hK n hn)
          { v with visiting := n :: v.visiting } ⟨hv.visited, ?_⟩
        intro x hx
        rcases List.mem_cons.1 hx with rfl | hx
        · exact hn
        · exact hv.visiting x hx

/-- What `TSort` returns, with the nodes renamed. -/
def TSortResult.ren (f : Str → Str) : TSortResult → TSortResult
  | .sorted l => .sorted (l.map f)
  | .cyclic c => .cyclic (c.map f)

theorem tsortLoop_ren (hi : ∀ a b, K a → K b → f a = f b → a = b) (h0 : ∀ a, K a → (f a = [] ↔ a = []))
    {E E' : Str → List Str} (hE : ∀ a, K a → E' (f a) = (E a).map f) (hK : ∀ a, K a → ∀ m ∈ E a, K m) (fuel : Nat) :
    ∀ (l : List Str), (∀ m ∈ l, K m) → ∀ v, Within K v →
      tsortLoop E' fuel (l.map f) (v.ren f) = (tsortLoop E fuel l v).map (TSortResult.ren f)
  | [], _, v, _ => rfl
  | n :: l, hl, v, hv => by
    have hn := hl n (by simp)
    have h2 : f n ∈ (v.ren f).visited ↔ n ∈ v.visited := mem_map_on hi hv.visited hn
    rw [List.map_cons]
    unfold tsortLoop
    by_cases b : n ∈ v.visited
    · rw [if_pos b, if_pos (h2.2 b)]
      exact tsortLoop_ren hi h0 hE hK fuel l (fun x hx => hl x (by simp [hx])) v hv
    · rw [if_neg b, if_neg (fun g => b (h2.1 g))]
      obtain ⟨x, y⟩ := visit_ren hi h0 hE hK fuel n hn v hv
      rw [x]
      cases e : visit E fuel n v with
      | none => rfl
      | some r =>
        obtain ⟨v', s⟩ := r
        obtain ⟨hw, -⟩ := y _ e
        simp only [Option.map_some]
        have hc : (v'.ren f).cycle = v'.cycle.map (List.map f) := rfl
        rw [hc]
        cases e2 : v'.cycle with
        | none =>
          simp only [Option.map_none]
          exact tsortLoop_ren hi h0 hE hK fuel l (fun x hx => hl x (by simp [hx])) v' hw
        | some c => rfl

/-! ## Graphs -/

variable {nodes nodes' : GoMap Str (List Str)} {g g' : DepGraph}

theorem Translated.inj (h : Translated f nodes nodes') : ∀ a ∈ nodes.keys, ∀ b ∈ nodes.keys, f a = f b → a = b :=
  inj_of_ascending h.ascending

theorem Translated.wf' (h : Translated f nodes nodes') (wf : nodes.WF) : nodes'.WF := by
  refine h.keys.nodup_iff.1 ?_
  exact List.Nodup.map_on (fun a ha b hb e => h.inj a ha b hb e) wf

theorem edge_key {n m : Str} (h : Edge nodes n m) : n ∈ nodes.keys := by
  obtain ⟨es, hes, -⟩ := h
  exact GoMap.mem_keys_of_get? hes

theorem Translated.closed (h : Translated f nodes nodes') (hc : Closed nodes) : Closed nodes' := by
  intro n' m' e'
  obtain ⟨n, m, e, -, rfl⟩ := (h.edges n' m').1 e'
  exact h.keys.mem_iff.1 (List.mem_map_of_mem (hc n m e))

theorem Translated.edge (h : Translated f nodes nodes') {n : Str} (hn : n ∈ nodes.keys) (m' : Str) :
    Edge nodes' (f n) m' ↔ ∃ m, Edge nodes n m ∧ f m = m' := by
  rw [h.edges]
  constructor
  · rintro ⟨n0, m, e, e1, e2⟩
    rw [h.inj n0 (edge_key e) n hn e1] at e
    exact ⟨m, e, e2⟩
  · rintro ⟨m, e, e2⟩
    exact ⟨n, m, e, rfl, e2⟩

theorem tsort_ren (wf : nodes.WF) (h : Translated f nodes nodes') {d d' : DirectedGraph}
    (hd : newDirectedGraph nodes = .ok d) (hd' : newDirectedGraph nodes' = .ok d') :
    tsort d' = (tsort d).map (TSortResult.ren f) := by
  obtain ⟨h1, h2, h3, h4⟩ := newDirectedGraph_ok wf hd
  obtain ⟨h1', h2', -, h4'⟩ := newDirectedGraph_ok (h.wf' wf) hd'
  have hsub : ∀ a, ∀ m ∈ getSet d a, m ∈ nodes.keys := by
    intro a m hm
    rw [mem_getSet, h4] at hm
    exact h3 a m hm
  unfold tsort
  have hlen : d'.length = d.length := by
    have := h.keys.length_eq
    rw [← h1, ← h1'] at this
    simpa [GoMap.keys] using this.symm
  rw [hlen, show sortStrs d'.keys = (sortStrs d.keys).map f by
    rw [h1, h1', ← sortStrs_map h.ascending]; exact (sortStrs_congr h.keys).symm]
  refine tsortLoop_ren (K := (· ∈ nodes.keys)) (fun a b ha hb => h.inj a ha b hb) h.nameless ?_ ?_ _ _ ?_
    { visited := [], visiting := [], cycle := none, sorted := [] } ⟨by simp, by simp⟩
  · intro a ha
    rw [← sortStrs_map (fun x hx y hy => h.ascending x (hsub a x hx) y (hsub a y hy))]
    refine sortStrs_congr ((List.perm_ext_iff_of_nodup (h2'.nodup_getSet _) ?_).2 ?_)
    · exact List.Nodup.map_on (fun x hx y hy e => h.inj x (hsub a x hx) y (hsub a y hy) e) (h2.nodup_getSet a)
    · intro m'
      rw [mem_getSet, h4', h.edge ha, List.mem_map]
      refine exists_congr fun m => ?_
      rw [mem_getSet, h4]
  · intro a _ m hm
    exact hsub a m (mem_sortStrs.1 hm)
  · intro m hm
    rw [← h1]; exact mem_sortStrs.1 hm

theorem popReady_ren {r r' : Str → Bool} : ∀ {l : List Str}, (∀ x ∈ l, r' (f x) = r x) →
    popReady r' (l.map f) = ((popReady r l).1.map f, (popReady r l).2.map f)
  | [], _ => rfl
  | x :: l, h => by
    rw [List.map_cons]
    unfold popReady
    rw [h x (by simp), popReady_ren (fun y hy => h y (by simp [hy]))]
    by_cases e : r x = true
    · simp [e]
    · simp [e]

theorem sweep_ren {r r' : Str → Bool} : ∀ {l : List Str}, (∀ x ∈ l, r' (f x) = r x) →
    sweep r' (l.map f) = ((sweep r l).1.map f, (sweep r l).2.map f)
  | [], _ => rfl
  | [x], _ => rfl
  | x :: y :: l, h => by
    have a := sweep_ren (l := l) (fun z hz => h z (by simp [hz]))
    have b := sweep_ren (l := y :: l) (fun z hz => h z (List.mem_cons_of_mem _ hz))
    rw [List.map_cons] at b
    rw [List.map_cons, List.map_cons]
    unfold sweep
    rw [h y (by simp), a, b]
    by_cases e : r y = true
    · simp [e]
    · simp [e]

theorem next_ren (h : Translated f nodes nodes') (hc : Closed nodes) {done done' emitted emitted' : List Str} {c c' : Str}
    (hi : DepInv nodes g done emitted) (hi' : DepInv nodes' g' done' emitted') (hp : g'.pending = g.pending.map f)
    (hdone : ∀ m ∈ nodes.keys, f m ∈ done' ++ [c'] ↔ m ∈ done ++ [c]) :
    (g'.next c').2 = (g.next c).2.map f ∧ (g'.next c').1.pending = (g.next c).1.pending.map f := by
  have hr : ∀ x ∈ g.pending,
      (fun id => decide (NodeSet.size (getSet (markCompleted c' (getSet g'.dependents c') g'.dependencies) id) < 1)) (f x)
      = (fun id => decide (NodeSet.size (getSet (markCompleted c (getSet g.dependents c) g.dependencies) id) < 1)) x := by
    intro x hx
    have hxk : x ∈ nodes.keys := hi.part.mem_iff.1 (List.mem_append_right _ hx)
    have a := next_isReady hi c x
    have a' := next_isReady hi' c' (f x)
    rw [Bool.eq_iff_iff]
    refine a'.trans (Iff.trans ?_ a.symm)
    constructor
    · intro H m hm
      exact (hdone m (hc x m hm)).1 (H (f m) ((h.edge hxk _).2 ⟨m, hm, rfl⟩))
    · intro H m' hm'
      obtain ⟨m, hm, rfl⟩ := (h.edge hxk m').1 hm'
      exact (hdone m (hc x m hm)).2 (H m hm)
  have hs : ∀ x ∈ (popReady (fun id => decide (NodeSet.size
      (getSet (markCompleted c (getSet g.dependents c) g.dependencies) id) < 1)) g.pending).2, x ∈ g.pending := by
    intro x hx
    rw [(popReady_spec _ g.pending).1]
    exact List.mem_append_right _ hx
  unfold DepGraph.next
  simp only [hp]
  rw [popReady_ren hr]
  simp only
  rw [sweep_ren (fun x hx => hr x (hs x hx))]
  simp

theorem run_ren (h : Translated f nodes nodes') (hc : Closed nodes) : ∀ (cs : List Str) {g g' : DepGraph}
    {done emitted emitted' : List Str}, DepInv nodes g done emitted → DepInv nodes' g' (done.map f) emitted' →
    g'.pending = g.pending.map f → (∀ x ∈ done, x ∈ nodes.keys) → (∀ c ∈ cs, c ∈ nodes.keys) →
    (g'.run (cs.map f)).2 = (g.run cs).2.map (List.map f)
  | [], _, _, _, _, _, _, _, _, _, _ => rfl
  | c :: cs, g, g', done, emitted, emitted', hi, hi', hp, hdone, hcs => by
    have hk := hcs c (by simp)
    have hall : ∀ y ∈ done ++ [c], y ∈ nodes.keys := by
      intro y hy
      rcases List.mem_append.1 hy with hy | hy
      · exact hdone y hy
      · rw [List.mem_singleton.1 hy]; exact hk
    obtain ⟨a, b⟩ := next_ren h hc hi hi' hp (c := c) (c' := f c) (fun m hm => by
      rw [show done.map f ++ [f c] = (done ++ [c]).map f by simp]
      exact mem_map_on (K := (· ∈ nodes.keys)) (fun a b ha hb => h.inj a ha b hb) hall hm)
    have hn := (next_inv hi c).1
    have hn' := (next_inv hi' (f c)).1
    have := run_ren h hc cs hn (by simpa using hn') b
      hall
      (fun x hx => hcs x (by simp [hx]))
    simp [DepGraph.run, a, this]

/-! ## The theorems -/

theorem translated_directed (wf : nodes.WF) (h : Translated f nodes nodes') {d : DirectedGraph}
    (hd : newDirectedGraph nodes = .ok d) : ∃ d', newDirectedGraph nodes' = .ok d' := by
  obtain ⟨-, -, hc, -⟩ := newDirectedGraph_ok wf hd
  cases e : newDirectedGraph nodes' with
  | ok d' => exact ⟨d', rfl⟩
  | error x =>
    obtain ⟨n, m, e1, e2, -⟩ := newDirectedGraph_err (h.wf' wf) e
    exact absurd (h.closed hc n m e1) e2

/-- **C162**, `TSort`: when the nodes are renamed in a way that keeps the order of their names, `TSort` returns the same
order, or the same cycle, in the new names. -/
theorem C162_order (wf : nodes.WF) (h : Translated f nodes nodes') {d : DirectedGraph}
    (hd : newDirectedGraph nodes = .ok d) :
    ∃ d', newDirectedGraph nodes' = .ok d' ∧
      (∀ l, tsort d = some (.sorted l) → tsort d' = some (.sorted (l.map f))) ∧
      (∀ c, tsort d = some (.cyclic c) → tsort d' = some (.cyclic (c.map f))) := by
  obtain ⟨d', hd'⟩ := translated_directed wf h hd
  refine ⟨d', hd', fun l e => ?_, fun c e => ?_⟩ <;> rw [tsort_ren wf h hd hd', e] <;> rfl

/-- **C162**, `NewDependencyGraph` and `Next`: a graph with renamed nodes is accepted too, and `Next` answers every call as
before, in the new names. -/
theorem C162_calls (wf : nodes.WF) (h : Translated f nodes nodes') (hg : newDependencyGraph nodes = some (.ok g)) :
    ∃ g', newDependencyGraph nodes' = some (.ok g') ∧
      ∀ cs : List Str, (∀ c ∈ cs, c ∈ nodes.keys) → (g'.run (cs.map f)).2 = (g.run cs).2.map (List.map f) := by
  obtain ⟨d, hd, ht⟩ := Sched.pending_tsort wf hg
  obtain ⟨d', hd', hs, -⟩ := C162_order wf h hd
  obtain ⟨-, -, hc, -⟩ := newDirectedGraph_ok wf hd
  have ht' := hs _ ht
  rcases newDependencyGraph_cases (h.wf' wf) with ⟨n, m, -, e1, e2⟩ | ⟨c, e, -⟩ | ⟨g', hg', -, -, hi'⟩
  · exact absurd (h.closed hc n m e1) e2
  · unfold newDependencyGraph at e
    rw [hd'] at e
    simp only [ht'] at e
    cases e
  · refine ⟨g', hg', fun cs hcs => ?_⟩
    have hi := (depInv_of_new wf hg).2
    refine run_ren h hc cs hi hi' ?_ (by simp) hcs
    obtain ⟨d2, a, b⟩ := Sched.pending_tsort (h.wf' wf) hg'
    rw [hd'] at a
    cases a
    rw [ht'] at b
    simpa using b.symm

/-- **C162**, a graph with a cycle: it is reported in the new names. -/
theorem C162_cycle (wf : nodes.WF) (h : Translated f nodes nodes') {c : List Str}
    (hg : newDependencyGraph nodes = some (.error (.circular c))) :
    newDependencyGraph nodes' = some (.error (.circular (c.map f))) := by
  unfold newDependencyGraph at hg
  cases e : newDirectedGraph nodes with
  | error x =>
    obtain ⟨n, m, -, -, rfl⟩ := newDirectedGraph_err wf e
    rw [e] at hg
    cases hg
  | ok d =>
    obtain ⟨d', hd', hs, hy⟩ := C162_order wf h e
    rw [e] at hg
    simp only at hg
    cases e2 : tsort d with
    | none => rw [e2] at hg; cases hg
    | some x =>
      rw [e2] at hg
      cases x with
      | sorted l => cases hg
      | cyclic c0 =>
        simp only [Option.some.injEq, Except.error.injEq, DagError.circular.injEq] at hg
        subst hg
        unfold newDependencyGraph
        rw [hd']
        simp only [hy _ e2]

/-! ## Examples -/

/-- The new names of the tasks `a`, `b`, `c`. -/
def exNames : Str → Str := fun s => if s = b!"a" then b!"build" else if s = b!"b" then b!"buildx" else b!"test"

theorem exTranslated : Translated exNames [(b!"c", [b!"a", b!"b"]), (b!"a", []), (b!"b", [b!"a"])]
    [(b!"build", []), (b!"buildx", [b!"build"]), (b!"test", [b!"buildx", b!"build"])] := by
  refine ⟨by decide, by decide, by decide, ?_⟩
  intro n' m'
  constructor
  · rintro ⟨es, h, hm⟩
    have hk := GoMap.mem_of_get? h
    simp only [List.mem_cons, Prod.mk.injEq, List.not_mem_nil, or_false] at hk
    rcases hk with ⟨rfl, rfl⟩ | ⟨rfl, rfl⟩ | ⟨rfl, rfl⟩
    · cases hm
    · simp only [List.mem_singleton] at hm
      subst hm
      exact ⟨b!"b", b!"a", ⟨[b!"a"], by decide, by decide⟩, by decide, by decide⟩
    · simp only [List.mem_cons, List.not_mem_nil, or_false] at hm
      rcases hm with rfl | rfl
      · exact ⟨b!"c", b!"b", ⟨[b!"a", b!"b"], by decide, by decide⟩, by decide, by decide⟩
      · exact ⟨b!"c", b!"a", ⟨[b!"a", b!"b"], by decide, by decide⟩, by decide, by decide⟩
  · rintro ⟨n, m, ⟨es, h, hm⟩, rfl, rfl⟩
    have hk := GoMap.mem_of_get? h
    simp only [List.mem_cons, Prod.mk.injEq, List.not_mem_nil, or_false] at hk
    rcases hk with ⟨rfl, rfl⟩ | ⟨rfl, rfl⟩ | ⟨rfl, rfl⟩
    · simp only [List.mem_cons, List.not_mem_nil, or_false] at hm
      rcases hm with rfl | rfl
      · exact ⟨[b!"buildx", b!"build"], by decide, by decide⟩
      · exact ⟨[b!"buildx", b!"build"], by decide, by decide⟩
    · cases hm
    · simp only [List.mem_singleton] at hm
      subst hm
      exact ⟨[b!"build"], by decide, by decide⟩

/-- Non-vacuity: the renamed graph is accepted, and answers in the new names. -/
example : ∃ g', newDependencyGraph [(b!"build", []), (b!"buildx", [b!"build"]), (b!"test", [b!"buildx", b!"build"])] =
      some (.ok g') ∧ (g'.run [b!"build", b!"buildx"]).2 = [[b!"build", b!"buildx"], [b!"test"]] := by
  obtain ⟨g', h, k⟩ := C162_calls (by decide) exTranslated
    (g := { dependencies := [(b!"c", [b!"a", b!"b"]), (b!"a", []), (b!"b", [b!"a"])],
            dependents := [(b!"a", [b!"c", b!"b"]), (b!"b", [b!"c"])], pending := [b!"a", b!"b", b!"c"] }) (by decide)
  exact ⟨g', h, (k [b!"a", b!"b"] (by decide)).trans (by decide)⟩

/-- The order of the names does matter: with two tasks whose names are exchanged the order is not the exchanged one. -/
theorem C162_names_matter : ∃ (f : Str → Str) (d d' : DirectedGraph) (l l' : List Str), Function.Injective f ∧
    newDirectedGraph [(b!"a", []), (b!"b", [])] = .ok d ∧ newDirectedGraph [(f b!"a", []), (f b!"b", [])] = .ok d' ∧
    tsort d = some (.sorted l) ∧ tsort d' = some (.sorted l') ∧ l' ≠ l.map f := by
  refine ⟨fun s => if s = b!"a" then b!"b" else if s = b!"b" then b!"a" else s, [(b!"a", []), (b!"b", [])],
    [(b!"b", []), (b!"a", [])], [b!"a", b!"b"], [b!"a", b!"b"], ?_, by decide, by decide, by decide, by decide, by decide⟩
  intro x y h
  simp only at h
  split at h <;> split at h <;> (try split at h) <;> (try split at h) <;> simp_all

end Verif.Dag
