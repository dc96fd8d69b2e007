import Verif.Sched.Protocol
import Verif.Sched.Props
import Verif.Dag.Props

/-!
# C145 and C156: what the scheduler hands out is determined by the tasks and the completions
-/

namespace Verif.Sched
open Verif Dag Spec

/-! ## The dependency graph -/

theorem edge_perm {nodes nodes' : GoMap Str (List Str)} (wf : nodes.WF) (hp : nodes.Perm nodes') (n m : Str) :
    Edge nodes n m ↔ Edge nodes' n m := by
  unfold Edge
  rw [GoMap.get?_perm wf hp]

theorem tsort_of_same {nodes nodes' : GoMap Str (List Str)} (wf : nodes.WF) (wf' : nodes'.WF)
    (hk : nodes.keys.Perm nodes'.keys) (hE : ∀ n m, Edge nodes n m ↔ Edge nodes' n m)
    {dg dg' : DirectedGraph} (h : newDirectedGraph nodes = .ok dg) (h' : newDirectedGraph nodes' = .ok dg') :
    tsort dg = tsort dg' := by
  obtain ⟨h1, h2, -, h4⟩ := newDirectedGraph_ok wf h
  obtain ⟨h1', h2', -, h4'⟩ := newDirectedGraph_ok wf' h'
  refine C06_tsort_map_order ?_ ?_
  · rw [h1, h1']; exact hk
  · intro n
    refine (List.perm_ext_iff_of_nodup (h2.nodup_getSet n) (h2'.nodup_getSet n)).2 ?_
    intro m
    rw [mem_getSet, mem_getSet, h4, h4', hE]

theorem pending_tsort {nodes : GoMap Str (List Str)} {g : DepGraph} (wf : nodes.WF)
    (h : newDependencyGraph nodes = some (.ok g)) :
    ∃ dg, newDirectedGraph nodes = .ok dg ∧ tsort dg = some (.sorted g.pending) := by
  unfold newDependencyGraph at h
  cases e : newDirectedGraph nodes with
  | error e' => rw [e] at h; cases h
  | ok dg =>
    rw [e] at h
    simp only at h
    cases e2 : tsort dg with
    | none => rw [e2] at h; cases h
    | some x =>
      rw [e2] at h
      cases x with
      | cyclic c => cases h
      | sorted l =>
        simp only [Option.some.injEq, Except.ok.injEq] at h
        refine ⟨dg, rfl, ?_⟩
        obtain ⟨-, h2, -, -⟩ := newDirectedGraph_ok wf e
        obtain ⟨-, -, f3⟩ := fillDeps_spec dg { dependencies := [], dependents := [], pending := l } h2.wf
          (by intro n _; rfl)
        rw [← h, f3]
        exact e2

theorem graph_of_same {nodes nodes' : GoMap Str (List Str)} (wf : nodes.WF) (wf' : nodes'.WF)
    (hk : nodes.keys.Perm nodes'.keys) (hE : ∀ n m, Edge nodes n m ↔ Edge nodes' n m) {g g' : DepGraph}
    (h : newDependencyGraph nodes = some (.ok g)) (h' : newDependencyGraph nodes' = some (.ok g')) :
    g.pending = g'.pending := by
  obtain ⟨dg, a, b⟩ := pending_tsort wf h
  obtain ⟨dg', a', b'⟩ := pending_tsort wf' h'
  have := tsort_of_same wf wf' hk hE a a'
  rw [b, b'] at this
  simpa using this

theorem next_same {nodes nodes' : GoMap Str (List Str)} (hE : ∀ n m, Edge nodes n m ↔ Edge nodes' n m)
    {g g' : DepGraph} {done emitted emitted' : List Str} (h : DepInv nodes g done emitted)
    (h' : DepInv nodes' g' done emitted') (hp : g.pending = g'.pending) (c : Str) :
    (g.next c).2 = (g'.next c).2 ∧ (g.next c).1.pending = (g'.next c).1.pending := by
  have hr : (fun id => decide (NodeSet.size (getSet (markCompleted c (getSet g.dependents c) g.dependencies) id) < 1)) =
      (fun id => decide (NodeSet.size (getSet (markCompleted c (getSet g'.dependents c) g'.dependencies) id) < 1)) := by
    funext x
    have a := next_isReady h c x
    have a' := next_isReady h' c x
    rw [Bool.eq_iff_iff, a, a']
    simp only [hE]
  unfold DepGraph.next
  simp only [hp]
  rw [hr]
  exact ⟨rfl, rfl⟩

/-! ## The scheduler -/

/-- What `buildReady` does with the queue of one target. -/
theorem buildReadyLoop_getQ (cap : GoMap Str Int) (pend : List (Str × List Str)) (len : GoMap Str Int)
    (wf : GoMap.WF pend) (q : Str) :
    getQ (buildReadyLoop cap pend len).2.2 q = (getQ pend q).take (getInt cap q - getInt len q).toNat := by
  induction pend generalizing len with
  | nil => simp [buildReadyLoop, getQ]
  | cons e rest ih =>
    obtain ⟨qid, tasks⟩ := e
    have wf' : GoMap.WF rest := by
      simp only [GoMap.WF, GoMap.keys, List.map_cons, List.nodup_cons] at wf ⊢; exact wf.2
    have hnq : qid ∉ GoMap.keys rest := by
      simp only [GoMap.WF, GoMap.keys, List.map_cons, List.nodup_cons] at wf ⊢; exact wf.1
    have hout : ∀ len, getQ (buildReadyLoop cap rest len).2.2 qid = [] := by
      intro len
      exact getQ_not_mem fun hk => hnq ((buildReadyLoop_spec cap rest len wf').rkeys.subset hk)
    simp only [buildReadyLoop]
    by_cases h1 : tasks.length < 1
    · have ht : tasks = [] := by rw [← List.length_eq_zero_iff]; omega
      simp only [h1, if_true, getQ_cons]
      split
      · rename_i e; subst e; rw [hout, ht, List.take_nil]
      · exact ih len wf'
    · simp only [h1, if_false]
      by_cases h2 : getInt cap qid - getInt len qid < 1
      · simp only [h2, if_true, getQ_cons]
        split
        · rename_i e; subst e
          rw [hout]
          have : (getInt cap qid - getInt len qid).toNat = 0 := by omega
          rw [this, List.take_zero]
        · exact ih len wf'
      · simp only [h2, if_false, getQ_cons]
        split
        · rename_i e; subst e
          split
          · rename_i h3
            rw [List.take_of_length_le (Nat.le_refl _), List.take_of_length_le (by omega)]
          · rfl
        · rename_i e
          rw [ih _ wf', getInt_set, if_neg e]

/-- Two schedulers that are to hand out the same. -/
structure Alike (s s' : Scheduler) : Prop where
  deps : s.deps.pending = s'.deps.pending
  target : ∀ t, targetOf s.tasks t = targetOf s'.tasks t
  queue : ∀ q, getQ s.pending q = getQ s'.pending q
  cap : ∀ q, getInt s.targetCap q = getInt s'.targetCap q
  len : ∀ q, getInt s.targetLen q = getInt s'.targetLen q

theorem Alike.buildReady {s s' : Scheduler} (h : Alike s s') (wf : s.pending.WF) (wf' : s'.pending.WF) :
    Alike s.buildReady.1 s'.buildReady.1 ∧ ∀ q, getQ s.buildReady.2 q = getQ s'.buildReady.2 q := by
  have hs := buildReadyLoop_spec s.targetCap s.pending s.targetLen wf
  have hs' := buildReadyLoop_spec s'.targetCap s'.pending s'.targetLen wf'
  have hr : ∀ q, getQ s.buildReady.2 q = getQ s'.buildReady.2 q := by
    intro q
    have a := buildReadyLoop_getQ s.targetCap s.pending s.targetLen wf q
    have a' := buildReadyLoop_getQ s'.targetCap s'.pending s'.targetLen wf' q
    rw [h.queue, h.cap, h.len] at a
    exact a.trans a'.symm
  refine ⟨⟨h.deps, h.target, ?_, h.cap, ?_⟩, hr⟩
  · intro q
    have a : getQ s.buildReady.2 q ++ getQ s.buildReady.1.pending q = getQ s.pending q := hs.split q
    have a' : getQ s'.buildReady.2 q ++ getQ s'.buildReady.1.pending q = getQ s'.pending q := hs'.split q
    rw [h.queue, ← a', hr] at a
    exact List.append_cancel_left a
  · intro q
    have a : getInt s.buildReady.1.targetLen q = getInt s.targetLen q + (getQ s.buildReady.2 q).length := hs.lenEq q
    have a' : getInt s'.buildReady.1.targetLen q = getInt s'.targetLen q + (getQ s'.buildReady.2 q).length :=
      hs'.lenEq q
    rw [a, a', hr, h.len]

variable {targets targets' : GoMap Str Int} {tasks tasks' : GoMap Str Task} {s s' : Scheduler}

theorem noPending_queue (wf : s.pending.WF) (q : Str) : getQ s.noPendingTasks.2 q = getQ s.pending q := by
  unfold Scheduler.noPendingTasks
  split
  · rfl
  · exact (dropEmpty_spec wf).2.1 q

/-- What two schedulers that are alike answer. -/
theorem Alike.next (hE : ∀ n m, Edge (depInput tasks) n m ↔ Edge (depInput tasks') n m)
    {rep rel rel' : List Str} {out out' : List (Str × Str)} (h : Alike s s') (hi : SInv tasks s rep rel out)
    (hi' : SInv tasks' s' rep rel' out') (c : Str) :
    Alike (s.next c).1 (s'.next c).1 ∧ ((s.next c).2 = none ↔ (s'.next c).2 = none) ∧
    ∀ r r', (s.next c).2 = some r → (s'.next c).2 = some r' → ∀ q, getQ r q = getQ r' q := by
  have hno : s.noPendingTasks.1 = s'.noPendingTasks.1 := by
    rw [Bool.eq_iff_iff, (noPending_spec hi).2, (noPending_spec hi').2, h.deps]
    simp only [h.queue]
  obtain ⟨hnx, hnp⟩ := next_same hE hi.dep hi'.dep h.deps c
  have hw := (noPending_spec hi).1.wf
  have hw' := (noPending_spec hi').1.wf
  simp only at hw hw'
  have hq := noPending_queue hi.wf
  have hq' := noPending_queue hi'.wf
  unfold Scheduler.next
  cases e : s.noPendingTasks with
  | mk b p =>
    cases e' : s'.noPendingTasks with
    | mk b' p' =>
      rw [e, e'] at hno
      rw [e] at hw hq
      rw [e'] at hw' hq'
      simp only at hno hw hw' hq hq'
      subst hno
      cases b with
      | true =>
        refine ⟨⟨h.deps, h.target, fun q => ?_, h.cap, h.len⟩, Iff.rfl, by simp⟩
        rw [hq, hq', h.queue]
      | false =>
        have hmid : Alike
            { s with deps := (s.deps.next c).1,
                     targetLen := s.targetLen.set (targetOf s.tasks c) (getInt s.targetLen (targetOf s.tasks c) - 1),
                     pending := fillPending s.tasks (s.deps.next c).2 p }
            { s' with deps := (s'.deps.next c).1,
                      targetLen := s'.targetLen.set (targetOf s'.tasks c) (getInt s'.targetLen (targetOf s'.tasks c) - 1),
                      pending := fillPending s'.tasks (s'.deps.next c).2 p' } := by
          refine ⟨hnp, h.target, fun q => ?_, h.cap, fun q => ?_⟩
          · simp only [fillPending_getQ]
            rw [hq, hq', h.queue, hnx]
            simp only [h.target]
          · simp only [getInt_set, h.target, h.len]
        obtain ⟨a, b⟩ := hmid.buildReady (fillPending_wf _ _ hw) (fillPending_wf _ _ hw')
        refine ⟨a, by simp, ?_⟩
        intro r r' hr hr'
        simp only [Option.some.injEq] at hr hr'
        rw [← hr, ← hr']
        exact b

theorem depInput_perm (hp : tasks.Perm tasks') : (depInput tasks).Perm (depInput tasks') := hp.map _

theorem depInput_wf (wf : tasks.WF) : (depInput tasks).WF := by
  simpa [depInput, GoMap.WF, GoMap.keys, Function.comp_def] using wf

/-- Two maps of tasks that say the same: they list the same tasks with the same targets, and every task comes after the
same tasks in both.  The entries may be listed in any order, and so may the dependencies of a task, which may moreover be
repeated. -/
structure SameTasks (tasks tasks' : GoMap Str Task) : Prop where
  targets : (tasks.map (fun p => (p.1, p.2.target))).Perm (tasks'.map (fun p => (p.1, p.2.target)))
  after : ∀ t m, After tasks t m ↔ After tasks' t m

theorem SameTasks.keys (h : SameTasks tasks tasks') : tasks.keys.Perm tasks'.keys := by
  have := h.targets.map Prod.fst
  simpa [GoMap.keys, Function.comp_def] using this

theorem SameTasks.wf (h : SameTasks tasks tasks') (wf : tasks.WF) : tasks'.WF := h.keys.nodup_iff.1 wf

theorem SameTasks.edge (h : SameTasks tasks tasks') (n m : Str) :
    Edge (depInput tasks) n m ↔ Edge (depInput tasks') n m := by
  rw [edge_depInput, edge_depInput, h.after]

theorem SameTasks.symm (h : SameTasks tasks tasks') : SameTasks tasks' tasks :=
  ⟨h.targets.symm, fun t m => (h.after t m).symm⟩

theorem SameTasks.inputKeys (h : SameTasks tasks tasks') : (depInput tasks).keys.Perm (depInput tasks').keys := by
  rw [keys_depInput, keys_depInput]; exact h.keys

/-- The order of the entries does not matter. -/
theorem SameTasks.of_perm (wf : tasks.WF) (h : tasks.Perm tasks') : SameTasks tasks tasks' :=
  ⟨h.map _, fun t m => by
    rw [← edge_depInput, ← edge_depInput]
    exact edge_perm (depInput_wf wf) (depInput_perm h) t m⟩

/-- What two schedulers hand out at once. -/
theorem Alike.new (wf : targets.WF) (wft : tasks.WF) (hq : targets.Perm targets') (ht : SameTasks tasks tasks')
    {r r' : GoMap Str (List Str)} (h : new targets tasks = some (.ok (s, r)))
    (h' : Sched.new targets' tasks' = some (.ok (s', r'))) : Alike s s' ∧ ∀ q, getQ r q = getQ r' q := by
  have wft' : tasks'.WF := ht.wf wft
  obtain ⟨g, hg, -, hd, -, -, -, -⟩ := new_pres wft h
  obtain ⟨g', hg', -, hd', -, -, -, -⟩ := new_pres wft' h'
  have hE := ht.edge
  have hpend := graph_of_same (depInput_wf wft) (depInput_wf wft') ht.inputKeys hE hg hg'
  obtain ⟨hnx, hnp⟩ := next_same hE hd hd' hpend []
  unfold Sched.new at h h'
  simp only [depInput] at hg hg'
  rw [hg] at h
  rw [hg'] at h'
  simp only [Option.some.injEq, Except.ok.injEq, Prod.ext_iff] at h h'
  have htgt : ∀ t, targetOf (tasks.map (fun p => (p.1, p.2.target))) t =
      targetOf (tasks'.map (fun p => (p.1, p.2.target))) t := by
    intro t
    unfold targetOf
    rw [GoMap.get?_perm (m := tasks.map (fun p => (p.1, p.2.target)))
      (by simpa [GoMap.WF, GoMap.keys, Function.comp_def] using wft) ht.targets]
  have hmid : Alike
      { deps := (g.next []).1, tasks := tasks.map (fun p => (p.1, p.2.target)),
        pending := fillPending (tasks.map (fun p => (p.1, p.2.target))) (g.next []).2 [],
        targetCap := targets, targetLen := targets.map (fun p => (p.1, 0)) }
      { deps := (g'.next []).1, tasks := tasks'.map (fun p => (p.1, p.2.target)),
        pending := fillPending (tasks'.map (fun p => (p.1, p.2.target))) (g'.next []).2 [],
        targetCap := targets', targetLen := targets'.map (fun p => (p.1, 0)) } := by
    refine ⟨hnp, htgt, fun q => ?_, fun q => ?_, fun q => ?_⟩
    · simp only [fillPending_getQ]
      rw [hnx]
      simp only [htgt]
    · unfold getInt
      rw [GoMap.get?_perm wf hq]
    · have h0 : ∀ (l : GoMap Str Int) q, getInt (l.map (fun p => (p.1, (0 : Int)))) q = 0 := by
        intro l q; unfold getInt
        rw [GoMap.get?_map_val (fun _ _ => (0 : Int))]
        cases GoMap.get? l q <;> rfl
      simp only [h0]
  obtain ⟨a, b⟩ := hmid.buildReady (fillPending_wf _ _ GoMap.WF.nil) (fillPending_wf _ _ GoMap.WF.nil)
  rw [← h.1, ← h'.1, ← h.2, ← h'.2]
  exact ⟨a, b⟩

/-- Two schedulers for the same runbook that were told of the same completions. -/
theorem History.alike (wf : targets.WF) (wft : tasks.WF) (hq : targets.Perm targets') (ht : SameTasks tasks tasks')
    {out out' : List (Str × Str)} {calls : List Str} (h : History targets tasks s out calls)
    (h' : History targets' tasks' s' out' calls) :
    ∃ rep rel rel', Alike s s' ∧ SInv tasks s rep rel out ∧ SInv tasks' s' rep rel' out' ∧
      ∀ q, out.filter (fun p => p.1 = q) = out'.filter (fun p => p.1 = q) := by
  have wft' : tasks'.WF := ht.wf wft
  have hE := ht.edge
  induction h generalizing s' out' with
  | @new s r h =>
    generalize hc : ([] : List Str) = calls at h'
    cases h' with
    | @new _ r' h' =>
      obtain ⟨a, b⟩ := Alike.new wf wft hq ht h h'
      obtain ⟨_, -, -, -, hi, hw, -, -⟩ := new_pres wft h
      obtain ⟨_, -, -, -, hi', hw', -, -⟩ := new_pres wft' h'
      refine ⟨_, _, _, a, hi, hi', fun q => ?_⟩
      rw [flat_filter hw, flat_filter hw', b]
    | next h1 c hn => simp at hc
    | refused h1 c hn => simp at hc
  | @next s s1 out calls r h c hn ih =>
    generalize hc : calls ++ [c] = calls' at h'
    cases h' with
    | new h1 => simp at hc
    | @next s2 s2' out2 calls2 r' h1 c' hn' =>
      obtain ⟨rfl, e⟩ := List.append_inj' hc rfl
      cases e
      obtain ⟨rep, rel, rel', hal, hi, hi', hf⟩ := ih h1
      obtain ⟨a, -, b⟩ := hal.next hE hi hi' c
      rw [hn, hn'] at a b
      obtain ⟨p1, w1, -⟩ := next_pres hi c hn
      obtain ⟨p2, w2, -⟩ := next_pres hi' c hn'
      refine ⟨_, _, _, a, p1, p2, fun q => ?_⟩
      rw [List.filter_append, List.filter_append, hf, flat_filter w1, flat_filter w2, b r r' rfl rfl]
    | @refused s2 s2' out2 calls2 h1 c' hn' =>
      obtain ⟨rfl, e⟩ := List.append_inj' hc rfl
      cases e
      obtain ⟨rep, rel, rel', hal, hi, hi', hf⟩ := ih h1
      obtain ⟨-, b, -⟩ := hal.next hE hi hi' c
      rw [hn, hn'] at b
      simp at b
  | @refused s s1 out calls h c hn ih =>
    generalize hc : calls ++ [c] = calls' at h'
    cases h' with
    | new h1 => simp at hc
    | @next s2 s2' out2 calls2 r' h1 c' hn' =>
      obtain ⟨rfl, e⟩ := List.append_inj' hc rfl
      cases e
      obtain ⟨rep, rel, rel', hal, hi, hi', hf⟩ := ih h1
      obtain ⟨-, b, -⟩ := hal.next hE hi hi' c
      rw [hn, hn'] at b
      simp at b
    | @refused s2 s2' out2 calls2 h1 c' hn' =>
      obtain ⟨rfl, e⟩ := List.append_inj' hc rfl
      cases e
      obtain ⟨rep, rel, rel', hal, hi, hi', hf⟩ := ih h1
      obtain ⟨a, -, -⟩ := hal.next hE hi hi' c
      rw [hn, hn'] at a
      exact ⟨_, _, _, a, (next_refused hi c hn).1, (next_refused hi' c hn').1, hf⟩

/-- **C156.** Two task sets say the same, and schedulers are made from them and then told of the same completions in the
same order.  Then for every target they have handed out the same tasks in the same order; and to the next call they both
answer that nothing is pending, or both hand out the same tasks of every target in the same order.  So the order in which
the dependencies of a task are written does not matter, nor that one is written twice. -/
theorem C156_determined (wf : targets.WF) (wft : tasks.WF) (hq : targets.Perm targets') (ht : SameTasks tasks tasks')
    {out out' : List (Str × Str)} {calls : List Str} (h : History targets tasks s out calls)
    (h' : History targets' tasks' s' out' calls) :
    (∀ q, out.filter (fun p => p.1 = q) = out'.filter (fun p => p.1 = q)) ∧
    ∀ c, ((s.next c).2 = none ∧ (s'.next c).2 = none) ∨
      ∃ r r', (s.next c).2 = some r ∧ (s'.next c).2 = some r' ∧
        ∀ q, (flat r).filter (fun p => p.1 = q) = (flat r').filter (fun p => p.1 = q) := by
  have hE := ht.edge
  obtain ⟨rep, rel, rel', hal, hi, hi', hf⟩ := h.alike wf wft hq ht h'
  refine ⟨hf, fun c => ?_⟩
  obtain ⟨-, b, d⟩ := hal.next hE hi hi' c
  cases e : (s.next c).2 with
  | none => exact .inl ⟨rfl, b.1 e⟩
  | some r =>
    cases e' : (s'.next c).2 with
    | none => rw [b.2 e'] at e; cases e
    | some r' =>
      refine .inr ⟨r, r', rfl, rfl, fun q => ?_⟩
      obtain ⟨-, w1, -⟩ := next_pres hi c (Prod.ext rfl e)
      obtain ⟨-, w2, -⟩ := next_pres hi' c (Prod.ext rfl e')
      rw [flat_filter w1, flat_filter w2, d r r' e e']

/-- C156 is about something: the dependencies of the last task are written in another order, and one of them twice. -/
example : ∃ s s' out out', SameTasks
      [(b!"a", ⟨b!"x", []⟩), (b!"b", ⟨b!"y", []⟩), (b!"d", ⟨b!"y", [b!"a", b!"b"]⟩)]
      [(b!"b", ⟨b!"y", []⟩), (b!"d", ⟨b!"y", [b!"b", b!"a", b!"b"]⟩), (b!"a", ⟨b!"x", []⟩)] ∧
    History [(b!"x", 1), (b!"y", 2)]
      [(b!"a", ⟨b!"x", []⟩), (b!"b", ⟨b!"y", []⟩), (b!"d", ⟨b!"y", [b!"a", b!"b"]⟩)] s out [b!"a", b!"b"] ∧
    History [(b!"y", 2), (b!"x", 1)]
      [(b!"b", ⟨b!"y", []⟩), (b!"d", ⟨b!"y", [b!"b", b!"a", b!"b"]⟩), (b!"a", ⟨b!"x", []⟩)] s' out' [b!"a", b!"b"] ∧
    out.filter (fun p => p.1 = b!"y") = [(b!"y", b!"b"), (b!"y", b!"d")] := by
  refine ⟨_, _, _, _, ⟨by decide +kernel, fun t m => ?_⟩, .next (.next (.new rfl) _ rfl) _ rfl,
    .next (.next (.new rfl) _ rfl) _ rfl, by decide +kernel⟩
  unfold After
  by_cases h1 : t = b!"a"
  · subst h1
    simp [GoMap.get?]
  · by_cases h2 : t = b!"b"
    · subst h2
      simp [GoMap.get?]
    · by_cases h3 : t = b!"d"
      · subst h3
        simp [GoMap.get?]
        exact .inr
      · simp [GoMap.get?, Ne.symm h1, Ne.symm h2, Ne.symm h3]

/-- **C156, made or not.** If a scheduler can be made from the one it can be made from the other. -/
theorem C156_made (wft : tasks.WF) (ht : SameTasks tasks tasks') (targets targets' : GoMap Str Int) :
    (∃ x, new targets tasks = some (.ok x)) ↔ ∃ x, new targets' tasks' = some (.ok x) := by
  have wft' : tasks'.WF := ht.wf wft
  have key : ∀ {tasks tasks' : GoMap Str Task} (targets targets' : GoMap Str Int), tasks.WF → tasks'.WF →
      SameTasks tasks tasks' → (∃ x, new targets tasks = some (.ok x)) → ∃ x, new targets' tasks' = some (.ok x) := by
    intro tasks tasks' targets targets' wft wft' ht ⟨⟨s, r⟩, h⟩
    have hE := ht.edge
    obtain ⟨g, hg, hcl, -⟩ := new_pres wft h
    have hac : Acyclic (Edge (depInput tasks)) := by
      rcases newDependencyGraph_cases (depInput_wf wft) with ⟨n, m, e, -⟩ | ⟨c, e, -⟩ | ⟨g', e, -, h1, -⟩
      · rw [hg] at e; cases e
      · rw [hg] at e; cases e
      · exact h1
    have hEE : Edge (depInput tasks) = Edge (depInput tasks') := by
      funext n m; exact propext (hE n m)
    rcases newDependencyGraph_cases (depInput_wf wft') with ⟨n, m, e, h1, h2⟩ | ⟨c, e, -, h1, -⟩ | ⟨g', e, -⟩
    · refine absurd (hcl n m ((hE n m).2 h1)) ?_
      intro hm
      exact h2 (ht.inputKeys.mem_iff.1 hm)
    · rw [← hEE] at h1; exact absurd hac h1
    · unfold new
      simp only [depInput] at e
      rw [e]
      exact ⟨_, rfl⟩
  exact ⟨key _ _ wft wft' ht, key _ _ wft' wft ht.symm⟩

/-- **C145.** Two schedulers are made from the same targets and tasks, whose entries Go's maps may list in any order, and
are then told of the same completions in the same order, whatever these are.  Then for every target they have handed out
the same tasks in the same order; and to the next call they both answer that nothing is pending, or both hand out the same
tasks of every target in the same order. -/
theorem C145_determined (wf : targets.WF) (wft : tasks.WF) (hq : targets.Perm targets') (ht : tasks.Perm tasks')
    {out out' : List (Str × Str)} {calls : List Str} (h : History targets tasks s out calls)
    (h' : History targets' tasks' s' out' calls) :
    (∀ q, out.filter (fun p => p.1 = q) = out'.filter (fun p => p.1 = q)) ∧
    ∀ c, ((s.next c).2 = none ∧ (s'.next c).2 = none) ∨
      ∃ r r', (s.next c).2 = some r ∧ (s'.next c).2 = some r' ∧
        ∀ q, (flat r).filter (fun p => p.1 = q) = (flat r').filter (fun p => p.1 = q) :=
  C156_determined wf wft hq (.of_perm wft ht) h h'

/-- C145 is about something: with the entries in another order, and another order in which the targets are listed. -/
example : ∃ s s' out out', History [(b!"x", 1), (b!"y", 2)]
      [(b!"a", ⟨b!"x", []⟩), (b!"b", ⟨b!"y", []⟩), (b!"c", ⟨b!"x", []⟩), (b!"d", ⟨b!"y", [b!"a"]⟩)] s out [b!"a"] ∧
    History [(b!"y", 2), (b!"x", 1)]
      [(b!"d", ⟨b!"y", [b!"a"]⟩), (b!"c", ⟨b!"x", []⟩), (b!"b", ⟨b!"y", []⟩), (b!"a", ⟨b!"x", []⟩)] s' out' [b!"a"] ∧
    out.filter (fun p => p.1 = b!"x") = [(b!"x", b!"a"), (b!"x", b!"c")] ∧
    out'.filter (fun p => p.1 = b!"y") = [(b!"y", b!"b"), (b!"y", b!"d")] :=
  ⟨_, _, _, _, .next (.new rfl) _ rfl, .next (.new rfl) _ rfl, by decide +kernel, by decide +kernel⟩

/-- **C145, made or not.** If a scheduler can be made from the one it can be made from the other. -/
theorem C145_made (wft : tasks.WF) (ht : tasks.Perm tasks') (targets targets' : GoMap Str Int) :
    (∃ x, new targets tasks = some (.ok x)) ↔ ∃ x, new targets' tasks' = some (.ok x) :=
  C156_made wft (.of_perm wft ht) targets targets'

end Verif.Sched
