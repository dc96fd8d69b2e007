import Verif.Sched.Model
import Verif.Dag.DependencyLemmas

/-! Invariants of the scheduler. -/

namespace Verif.Sched
open Verif Dag

/-- All `(target, task)` pairs of a map from target to tasks. -/
def flat (m : GoMap Str (List Str)) : List (Str × Str) :=
  m.flatMap (fun p => p.2.map (fun t => (p.1, t)))

theorem getQ_cons (a : Str) (ts : List Str) (m : GoMap Str (List Str)) (q : Str) :
    getQ ((a, ts) :: m) q = if a = q then ts else getQ m q := by
  unfold getQ; rw [GoMap.get?_cons]; split <;> rfl

theorem getQ_not_mem {m : GoMap Str (List Str)} {q : Str} (h : q ∉ m.keys) : getQ m q = [] := by
  unfold getQ; rw [GoMap.get?_eq_none.mpr h]; rfl

theorem getQ_set (m : GoMap Str (List Str)) (k : Str) (l : List Str) (q : Str) :
    getQ (m.set k l) q = if k = q then l else getQ m q := by
  unfold getQ; rw [GoMap.get?_set]; split <;> rfl

theorem getInt_set (m : GoMap Str Int) (k : Str) (l : Int) (q : Str) :
    getInt (m.set k l) q = if k = q then l else getInt m q := by
  unfold getInt; rw [GoMap.get?_set]; split <;> rfl

theorem flat_filter {m : GoMap Str (List Str)} (wf : m.WF) (q : Str) :
    (flat m).filter (fun p => p.1 = q) = (getQ m q).map (fun t => (q, t)) := by
  induction m with
  | nil => rfl
  | cons p m ih =>
    obtain ⟨a, ts⟩ := p
    have wf' : GoMap.WF m := by
      simp only [GoMap.WF, GoMap.keys, List.map_cons, List.nodup_cons] at wf ⊢; exact wf.2
    have hna : a ∉ GoMap.keys m := by
      simp only [GoMap.WF, GoMap.keys, List.map_cons, List.nodup_cons] at wf ⊢; exact wf.1
    have ih := ih wf'
    simp only [flat] at ih
    simp only [flat, List.flatMap_cons, List.filter_append, getQ_cons]
    by_cases e : a = q
    · subst e
      rw [ih, getQ_not_mem hna]
      simp
    · rw [ih, if_neg e]
      have : List.filter (fun p : Str × Str => decide (p.1 = q)) (ts.map (fun t => (a, t))) = [] := by
        rw [List.filter_eq_nil_iff]; simp [e]
      rw [this]; rfl

theorem mem_flat {m : GoMap Str (List Str)} (wf : m.WF) {q t : Str} :
    (q, t) ∈ flat m ↔ t ∈ getQ m q := by
  have h := flat_filter wf q
  constructor
  · intro hm
    have : (q, t) ∈ (flat m).filter (fun p => p.1 = q) := by simp [hm]
    rw [h] at this; simpa using this
  · intro hm
    have : (q, t) ∈ (getQ m q).map (fun t => (q, t)) := by simp [hm]
    rw [← h] at this; exact (List.mem_filter.mp this).1

structure ReadySpec (cap len : GoMap Str Int) (pend : List (Str × List Str))
    (p : GoMap Str (List Str)) (l : GoMap Str Int) (r : GoMap Str (List Str)) : Prop where
  keys : p.keys = GoMap.keys pend
  rkeys : (GoMap.keys r).Sublist (GoMap.keys pend)
  split : ∀ q, getQ r q ++ getQ p q = getQ pend q
  lenEq : ∀ q, getInt l q = getInt len q + (getQ r q).length
  le : ∀ q, getInt len q ≤ getInt cap q → getInt l q ≤ getInt cap q
  full : ∀ q, getQ p q ≠ [] → getInt cap q ≤ getInt l q
  rne : ∀ q ts, (q, ts) ∈ r → ts ≠ []

theorem buildReadyLoop_spec (cap : GoMap Str Int) (pend : List (Str × List Str))
    (len : GoMap Str Int) (wf : GoMap.WF pend) :
    ReadySpec cap len pend (buildReadyLoop cap pend len).1 (buildReadyLoop cap pend len).2.1
      (buildReadyLoop cap pend len).2.2 := by
  induction pend generalizing len with
  | nil =>
    simp only [buildReadyLoop]
    constructor <;> simp [getQ, GoMap.keys]
  | cons e rest ih =>
    obtain ⟨qid, tasks⟩ := e
    have wf' : GoMap.WF rest := by
      simp only [GoMap.WF, GoMap.keys, List.map_cons, List.nodup_cons] at wf ⊢; exact wf.2
    have hnq : qid ∉ GoMap.keys rest := by
      simp only [GoMap.WF, GoMap.keys, List.map_cons, List.nodup_cons] at wf ⊢; exact wf.1
    have keep : ∀ (h : tasks = [] ∨ getInt cap qid - getInt len qid < 1),
        ReadySpec cap len ((qid, tasks) :: rest)
          ((qid, tasks) :: (buildReadyLoop cap rest len).1) (buildReadyLoop cap rest len).2.1
          (buildReadyLoop cap rest len).2.2 := by
      intro h
      have ih := ih len wf'
      have hrq : getQ (buildReadyLoop cap rest len).2.2 qid = [] :=
        getQ_not_mem (fun hk => hnq (ih.rkeys.subset hk))
      refine ⟨?_, ?_, ?_, ih.lenEq, ih.le, ?_, ih.rne⟩
      · have := ih.keys
        simp only [GoMap.keys, List.map_cons] at this ⊢; rw [this]
      · exact ih.rkeys.trans (List.sublist_cons_self _ _)
      · intro q
        rw [getQ_cons, getQ_cons]
        split
        · rename_i e; subst e; rw [hrq]; rfl
        · exact ih.split q
      · intro q hq
        rw [getQ_cons] at hq
        split at hq
        · rename_i e; subst e
          rcases h with h | h
          · exact absurd h hq
          · rw [ih.lenEq, hrq]; simp; omega
        · exact ih.full q hq
    simp only [buildReadyLoop]
    by_cases h1 : tasks.length < 1
    · simp only [h1, if_true]
      exact keep (Or.inl (by rw [← List.length_eq_zero_iff]; omega))
    · simp only [h1, if_false]
      by_cases h2 : getInt cap qid - getInt len qid < 1
      · simp only [h2, if_true]
        exact keep (Or.inr h2)
      · simp only [h2, if_false]
        set n := getInt cap qid - getInt len qid with hn
        set k : Nat := if n > tasks.length then tasks.length else n.toNat with hk
        have hk1 : 1 ≤ k := by rw [hk]; split <;> omega
        have hk2 : k ≤ tasks.length := by rw [hk]; split <;> omega
        have hk3 : (k : Int) ≤ n := by rw [hk]; split <;> omega
        have hk4 : k = tasks.length ∨ (k : Int) = n := by rw [hk]; split <;> omega
        have ih := ih (len.set qid (getInt len qid + k)) wf'
        set B := buildReadyLoop cap rest (len.set qid (getInt len qid + k)) with hB
        have hrq : getQ B.2.2 qid = [] := getQ_not_mem (fun hk => hnq (ih.rkeys.subset hk))
        have htake : (tasks.take k).length = k := by simp; omega
        refine ⟨?_, ?_, ?_, ?_, ?_, ?_, ?_⟩
        · have := ih.keys
          simp only [GoMap.keys, List.map_cons] at this ⊢; rw [this]
        · exact ih.rkeys.cons_cons _
        · intro q
          rw [getQ_cons, getQ_cons, getQ_cons]
          split
          · exact List.take_append_drop _ _
          · exact ih.split q
        · intro q
          have := ih.lenEq q
          rw [getInt_set] at this
          rw [getQ_cons, this]
          split
          · rename_i e; subst e; rw [hrq, htake]; simp
          · rfl
        · intro q hq
          have h3 := ih.lenEq q
          rw [getInt_set] at h3
          by_cases e : qid = q
          · subst e; rw [h3, hrq]; simp; omega
          · refine ih.le q ?_
            rw [getInt_set, if_neg e]; exact hq
        · intro q hq
          rw [getQ_cons] at hq
          split at hq
          · rename_i e; subst e
            have h3 := ih.lenEq qid
            rw [getInt_set] at h3
            rw [h3, hrq]
            rcases hk4 with h4 | h4
            · exfalso; apply hq; simp [h4]
            · simp; omega
          · exact ih.full q hq
        · intro q ts hm
          rcases List.mem_cons.mp hm with e | hm
          · cases e; intro e; rw [e] at htake; simp at htake; omega
          · exact ih.rne q ts hm

theorem fillPending_getQ (tasks : GoMap Str Str) (ts : List Str) (p : GoMap Str (List Str)) (q : Str) :
    getQ (fillPending tasks ts p) q = getQ p q ++ ts.filter (fun t => targetOf tasks t = q) := by
  induction ts generalizing p with
  | nil => simp [fillPending]
  | cons t ts ih =>
    simp only [fillPending, ih, getQ_set, List.filter_cons]
    by_cases e : targetOf tasks t = q
    · simp [e]
    · simp [e]

theorem fillPending_wf (tasks : GoMap Str Str) (ts : List Str) {p : GoMap Str (List Str)}
    (h : p.WF) : (fillPending tasks ts p).WF := by
  induction ts generalizing p with
  | nil => exact h
  | cons t ts ih => exact ih (h.set _ _)

theorem dropEmpty_spec {m : GoMap Str (List Str)} (wf : m.WF) :
    (dropEmpty m).2.WF ∧ (∀ q, getQ (dropEmpty m).2 q = getQ m q) ∧
    ((dropEmpty m).1 = true ↔ ∀ q, getQ m q = []) ∧
    (∀ k, k ∈ (dropEmpty m).2.keys → k ∈ m.keys) := by
  induction m with
  | nil => simp [dropEmpty, getQ, GoMap.WF, GoMap.keys]
  | cons e rest ih =>
    obtain ⟨qid, tasks⟩ := e
    have wf' : GoMap.WF rest := by
      simp only [GoMap.WF, GoMap.keys, List.map_cons, List.nodup_cons] at wf ⊢; exact wf.2
    have hnq : qid ∉ GoMap.keys rest := by
      simp only [GoMap.WF, GoMap.keys, List.map_cons, List.nodup_cons] at wf ⊢; exact wf.1
    simp only [dropEmpty]
    split
    · rename_i h
      refine ⟨wf, fun _ => rfl, ?_, fun _ h => h⟩
      simp only [Bool.false_eq_true, false_iff, not_forall]
      refine ⟨qid, ?_⟩
      rw [getQ_cons]; simp
      intro e; rw [e] at h; simp at h
    · rename_i h
      have ht : tasks = [] := by rw [← List.length_eq_zero_iff]; omega
      subst ht
      obtain ⟨h1, h2, h3, h4⟩ := ih wf'
      have hg : ∀ q, getQ ((qid, []) :: rest) q = getQ rest q := by
        intro q; rw [getQ_cons]; split
        · rename_i e; subst e; rw [getQ_not_mem hnq]
        · rfl
      refine ⟨h1, fun q => by rw [hg]; exact h2 q, ?_, ?_⟩
      · simp only [hg]; exact h3
      · intro k hk; have := h4 k hk; simp only [GoMap.keys, List.map_cons, List.mem_cons]; exact Or.inr this

/-- The dependency input the scheduler passes to the graph. -/
def depInput (tasks : GoMap Str Task) : GoMap Str (List Str) := tasks.map (fun p => (p.1, p.2.after))

/-- Invariant after any history: `reported` are the completions passed to the dependency graph
(the "" of `New` first), `released` the tasks it returned, in order, and `out` the
`(target, task)` pairs handed out, in order. -/
structure SInv (tasks : GoMap Str Task) (s : Scheduler) (reported released : List Str)
    (out : List (Str × Str)) : Prop where
  dep : DepInv (depInput tasks) s.deps reported released
  tasksEq : s.tasks = tasks.map (fun p => (p.1, p.2.target))
  wf : s.pending.WF
  fifo : ∀ q, (out.filter (fun p => p.1 = q)).map Prod.snd ++ getQ s.pending q =
    released.filter (fun t => targetOf s.tasks t = q)

theorem SInv.mem_out {tasks : GoMap Str Task} {s : Scheduler} {reported released : List Str}
    {out : List (Str × Str)} (h : SInv tasks s reported released out) {q t : Str}
    (hm : (q, t) ∈ out) : t ∈ released ∧ targetOf s.tasks t = q := by
  have : t ∈ (out.filter (fun p => p.1 = q)).map Prod.snd ++ getQ s.pending q := by
    apply List.mem_append_left
    exact List.mem_map.mpr ⟨(q, t), by simp [hm], rfl⟩
  rw [h.fifo] at this
  simpa using this

theorem SInv.released_nodup {tasks : GoMap Str Task} (wf : tasks.WF) {s : Scheduler}
    {reported released : List Str} {out : List (Str × Str)} (h : SInv tasks s reported released out) :
    released.Nodup := by
  have hk : (depInput tasks).keys = tasks.keys := by simp [depInput, GoMap.keys, Function.comp_def]
  have hp := h.dep.part
  rw [hk] at hp
  exact (List.nodup_append.mp (hp.nodup_iff.mpr wf)).1

theorem SInv.out_nodup {tasks : GoMap Str Task} (wf : tasks.WF) {s : Scheduler}
    {reported released : List Str} {out : List (Str × Str)} (h : SInv tasks s reported released out) :
    (out.map Prod.snd).Nodup := by
  have hrel := h.released_nodup wf
  have hnd : out.Nodup := by
    rw [List.nodup_iff_count_le_one]
    rintro ⟨q, t⟩
    have hq : ((out.filter (fun p => p.1 = q)).map Prod.snd).Nodup := by
      have : ((out.filter (fun p => p.1 = q)).map Prod.snd ++ getQ s.pending q).Nodup := by
        rw [h.fifo]; exact hrel.filter _
      exact (List.nodup_append.mp this).1
    have h1 : out.count (q, t) = (out.filter (fun p => p.1 = q)).count (q, t) := by
      rw [List.count_filter (by simp)]
    rw [h1]
    exact List.nodup_iff_count_le_one.mp (List.Nodup.of_map _ hq) _
  refine List.Nodup.map_on ?_ hnd
  rintro ⟨q, t⟩ h1 ⟨q', t'⟩ h2 (e : t = t')
  subst e
  rw [← (h.mem_out h1).2, ← (h.mem_out h2).2]

theorem buildReady_pres {tasks : GoMap Str Task} {s : Scheduler}
    {reported released : List Str} {out : List (Str × Str)} (h : SInv tasks s reported released out) :
    SInv tasks s.buildReady.1 reported released (out ++ flat s.buildReady.2) := by
  have hs := buildReadyLoop_spec s.targetCap s.pending s.targetLen h.wf
  have hrwf : (GoMap.WF s.buildReady.2) := hs.rkeys.nodup h.wf
  refine ⟨h.dep, h.tasksEq, ?_, ?_⟩
  · have : s.buildReady.1.pending.keys = s.pending.keys := hs.keys
    unfold GoMap.WF; rw [this]; exact h.wf
  · intro q
    have hsp : getQ s.buildReady.2 q ++ getQ s.buildReady.1.pending q = getQ s.pending q := hs.split q
    rw [List.filter_append, List.map_append, flat_filter hrwf, List.append_assoc]
    simp only [List.map_map, Function.comp_def, List.map_id']
    rw [hsp]; exact h.fifo q

theorem noPending_spec {tasks : GoMap Str Task} {s : Scheduler}
    {reported released : List Str} {out : List (Str × Str)} (h : SInv tasks s reported released out) :
    SInv tasks { s with pending := s.noPendingTasks.2 } reported released out ∧
    (s.noPendingTasks.1 = true ↔ s.deps.pending = [] ∧ ∀ q, getQ s.pending q = []) := by
  obtain ⟨h1, h2, h3, _⟩ := dropEmpty_spec h.wf
  unfold Scheduler.noPendingTasks DepGraph.hasPending
  cases e : s.deps.pending with
  | nil =>
    simp only [Bool.false_eq_true, if_false, true_and]
    exact ⟨⟨h.dep, h.tasksEq, h1, fun q => by rw [h2]; exact h.fifo q⟩, h3⟩
  | cons x t =>
    simp only [if_true, Bool.false_eq_true, false_iff]
    exact ⟨h, by simp⟩

theorem noPending_iff_all {tasks : GoMap Str Task} (wf : tasks.WF) {s : Scheduler}
    {reported released : List Str} {out : List (Str × Str)} (h : SInv tasks s reported released out) :
    s.noPendingTasks.1 = true ↔ ∀ t ∈ tasks.keys, ∃ q, (q, t) ∈ out := by
  have hk : (depInput tasks).keys = tasks.keys := by simp [depInput, GoMap.keys, Function.comp_def]
  have hp := h.dep.part
  rw [hk] at hp
  rw [(noPending_spec h).2]
  constructor
  · rintro ⟨h1, h2⟩ t ht
    have htr : t ∈ released := by
      have := hp.mem_iff.mpr ht
      simpa [h1] using this
    refine ⟨targetOf s.tasks t, ?_⟩
    have : t ∈ released.filter (fun t' => targetOf s.tasks t' = targetOf s.tasks t) := by simp [htr]
    rw [← h.fifo, h2] at this
    simp only [List.append_nil, List.mem_map, List.mem_filter, decide_eq_true_eq] at this
    obtain ⟨⟨q, t'⟩, ⟨h3, h4⟩, h5⟩ := this
    simp only at h4 h5; subst h5; rw [← h4]; exact h3
  · intro hall
    have hnd := hp.nodup_iff.mpr wf
    rw [List.nodup_append] at hnd
    constructor
    · rw [List.eq_nil_iff_forall_not_mem]
      intro x hx
      obtain ⟨q, hq⟩ := hall x (hp.mem_iff.mp (List.mem_append_right _ hx))
      exact hnd.2.2 x (h.mem_out hq).1 x hx rfl
    · intro q
      rw [List.eq_nil_iff_forall_not_mem]
      intro x hx
      have hxr : x ∈ released.filter (fun t => targetOf s.tasks t = q) := by
        rw [← h.fifo]; exact List.mem_append_right _ hx
      rw [List.mem_filter] at hxr
      obtain ⟨q', hq'⟩ := hall x (hp.mem_iff.mp (List.mem_append_left _ hxr.1))
      have e1 := (h.mem_out hq').2
      have e2 : targetOf s.tasks x = q := by simpa using hxr.2
      have : q' = q := e1.symm.trans e2
      subst this
      have hfn : (released.filter (fun t => targetOf s.tasks t = q')).Nodup := hnd.1.filter _
      rw [← h.fifo] at hfn
      refine (List.nodup_append.mp hfn).2.2 x ?_ x hx rfl
      exact List.mem_map.mpr ⟨(q', x), by simp [hq'], rfl⟩

/-- One `Next(c)` that is not refused. -/
theorem next_pres {tasks : GoMap Str Task} {s : Scheduler}
    {reported released : List Str} {out : List (Str × Str)} (h : SInv tasks s reported released out)
    (c : Str) {s' : Scheduler} {r : GoMap Str (List Str)} (hn : s.next c = (s', some r)) :
    SInv tasks s' (reported ++ [c]) (released ++ (s.deps.next c).2) (out ++ flat r) ∧ r.WF ∧
    s'.deps = (s.deps.next c).1 := by
  obtain ⟨h1, h2⟩ := noPending_spec h
  unfold Scheduler.next at hn
  split at hn
  · cases hn
  · rename_i p he
    simp only [Prod.mk.injEq, Option.some.injEq] at hn
    have hp : s.noPendingTasks.2 = p := by rw [he]
    rw [hp] at h1
    have hd := next_inv h.dep c
    have hmid : SInv tasks { s with
        deps := (s.deps.next c).1
        targetLen := s.targetLen.set (targetOf s.tasks c) (getInt s.targetLen (targetOf s.tasks c) - 1)
        pending := fillPending s.tasks (s.deps.next c).2 p }
        (reported ++ [c]) (released ++ (s.deps.next c).2) out := by
      refine ⟨hd.1, h.tasksEq, fillPending_wf _ _ h1.wf, ?_⟩
      intro q
      simp only [fillPending_getQ, List.filter_append]
      rw [← List.append_assoc]
      congr 1
      exact h1.fifo q
    have := buildReady_pres hmid
    have hwf : GoMap.WF (Scheduler.buildReady { s with
        deps := (s.deps.next c).1
        targetLen := s.targetLen.set (targetOf s.tasks c) (getInt s.targetLen (targetOf s.tasks c) - 1)
        pending := fillPending s.tasks (s.deps.next c).2 p }).2 :=
      (buildReadyLoop_spec _ _ _ hmid.wf).rkeys.nodup hmid.wf
    rw [← hn.1, ← hn.2]
    exact ⟨this, hwf, rfl⟩

theorem next_refused {tasks : GoMap Str Task} {s : Scheduler}
    {reported released : List Str} {out : List (Str × Str)} (h : SInv tasks s reported released out)
    (c : Str) {s' : Scheduler} (hn : s.next c = (s', none)) :
    SInv tasks s' reported released out ∧ s.noPendingTasks.1 = true ∧
    s'.noPendingTasks.1 = true := by
  obtain ⟨h1, h2⟩ := noPending_spec h
  unfold Scheduler.next at hn
  split at hn
  · rename_i p he
    simp only [Prod.mk.injEq] at hn
    have hp : s.noPendingTasks.2 = p := by rw [he]
    have ht : s.noPendingTasks.1 = true := by rw [he]
    rw [hp] at h1
    refine ⟨hn.1 ▸ h1, ht, ?_⟩
    rw [← hn.1, (noPending_spec h1).2]
    obtain ⟨a, b⟩ := h2.mp ht
    refine ⟨a, fun q => ?_⟩
    -- queues are unchanged by the deletion of empty entries
    have hd : s.deps.hasPending = false := by unfold DepGraph.hasPending; rw [a]
    have : p = (dropEmpty s.pending).2 := by
      rw [← hp]; unfold Scheduler.noPendingTasks; simp [hd]
    simp only [this]
    rw [(dropEmpty_spec h.wf).2.1]; exact b q
  · rename_i he; simp at hn

theorem next_none_iff {s : Scheduler} (c : Str) :
    (s.next c).2 = none ↔ s.noPendingTasks.1 = true := by
  unfold Scheduler.next
  split
  · rename_i he; simp [he]
  · rename_i he; simp [he]

theorem new_pres {targets : GoMap Str Int} {tasks : GoMap Str Task} (wf : tasks.WF)
    {s : Scheduler} {r : GoMap Str (List Str)} (h : new targets tasks = some (.ok (s, r))) :
    ∃ g, newDependencyGraph (depInput tasks) = some (.ok g) ∧ Spec.Closed (depInput tasks) ∧
      DepInv (depInput tasks) g [] [] ∧
      SInv tasks s [[]] (g.next []).2 (flat r) ∧ r.WF ∧ s.deps = (g.next []).1 ∧
      s.targetCap = targets := by
  have hk : (depInput tasks).WF := by
    simpa [depInput, GoMap.WF, GoMap.keys, Function.comp_def] using wf
  unfold new at h
  rcases newDependencyGraph_cases hk with ⟨n, m, e, _⟩ | ⟨c, e, _⟩ | ⟨g, e, h1, _, h2⟩
  · simp only [depInput] at e; rw [e] at h; cases h
  · simp only [depInput] at e; rw [e] at h; cases h
  · refine ⟨g, e, h1, h2, ?_⟩
    simp only [depInput] at e; rw [e] at h
    simp only [Option.some.injEq, Except.ok.injEq] at h
    have hd := next_inv h2 []
    simp only [List.nil_append] at hd
    have hmid : SInv tasks
        { deps := (g.next []).1, tasks := tasks.map (fun p => (p.1, p.2.target)),
          pending := fillPending (tasks.map (fun p => (p.1, p.2.target))) (g.next []).2 [],
          targetCap := targets, targetLen := targets.map (fun p => (p.1, 0)) }
        [[]] (g.next []).2 [] := by
      refine ⟨hd.1, rfl, fillPending_wf _ _ GoMap.WF.nil, ?_⟩
      intro q
      simp only [fillPending_getQ]; simp [getQ]
    have hb := buildReady_pres hmid
    have hwf := (buildReadyLoop_spec targets _ (targets.map (fun p => (p.1, 0))) hmid.wf).rkeys.nodup
      hmid.wf
    have h' := h
    rw [Prod.ext_iff] at h'
    obtain ⟨h3, h4⟩ := h'
    simp only at h3 h4
    rw [← h3, ← h4]
    refine ⟨?_, hwf, rfl, rfl⟩
    simpa using hb

end Verif.Sched
