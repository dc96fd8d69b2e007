import Verif.Sched.Protocol

/-!
# Properties C12-C17 (`internal/runbook/scheduler`)

`targets` maps target ids to concurrency limits, `tasks` maps task ids to tasks; both are Go maps.
`History targets tasks s out calls`: after `New` and the `Next` calls `calls`, the scheduler is `s`
and the pairs `out` have been handed out.  Every prefix of a history is a history, so a statement
about all histories is a statement about every moment.
-/

namespace Verif.Sched
open Verif Dag

/-- Task `t` lists `m` in its `After`. -/
def After (tasks : GoMap Str Task) (t m : Str) : Prop :=
  ∃ task, tasks.get? t = some task ∧ m ∈ task.after

/-- What a parsed runbook guarantees: every task's target exists and has limit at least 1. -/
def ValidTargets (targets : GoMap Str Int) (tasks : GoMap Str Task) : Prop :=
  ∀ t task, tasks.get? t = some task → ∃ n, targets.get? task.target = some n ∧ 1 ≤ n

theorem edge_depInput {tasks : GoMap Str Task} {t m : Str} :
    Spec.Edge (depInput tasks) t m ↔ After tasks t m := by
  unfold Spec.Edge After depInput
  rw [GoMap.get?_map_val (fun _ (v : Task) => v.after)]
  cases h : tasks.get? t <;> simp

theorem keys_depInput (tasks : GoMap Str Task) : (depInput tasks).keys = tasks.keys := by
  simp [depInput, GoMap.keys, Function.comp_def]

theorem targetOf_eq {tasks : GoMap Str Task} {t : Str} {task : Task}
    (h : tasks.get? t = some task) :
    targetOf (tasks.map (fun p => (p.1, p.2.target))) t = task.target := by
  unfold targetOf
  rw [GoMap.get?_map_val (fun _ (v : Task) => v.target), h]; rfl

/-! ## C12 -/

/-- If anything is handed out, all dependencies are on tasks of the runbook. -/
theorem History.known {targets : GoMap Str Int} {tasks : GoMap Str Task}
    (wf : tasks.WF) {s : Scheduler} {out : List (Str × Str)}
    {calls : List Str} (h : History targets tasks s out calls) {t m : Str}
    (hm : After tasks t m) : m ∈ tasks.keys := by
  obtain ⟨rep, rel, h1, h2, h3, _⟩ := h.inv wf
  have := h3 t m (edge_depInput.mpr hm)
  rwa [keys_depInput] at this

/-- **C12 (partial).** At every moment of every history, every task handed out has all its `After` tasks, but for
one named "", among the completions reported so far.
Missing: a dependency on a task named "" (`C12_refuted`). -/
theorem C12_scheduler_dependencies_partial {targets : GoMap Str Int} {tasks : GoMap Str Task}
    (wf : tasks.WF) {s : Scheduler} {out : List (Str × Str)}
    {calls : List Str} (h : History targets tasks s out calls) {q t m : Str} (hout : (q, t) ∈ out)
    (hm : After tasks t m) (hm0 : m ≠ b!"") : m ∈ calls := by
  obtain ⟨rep, rel, h1, h2, h3, _⟩ := h.inv wf
  have := h1.dep.safe t (h1.mem_out hout).1 m (edge_depInput.mpr hm)
  rcases List.mem_cons.mp this with e | e
  · exact absurd e hm0
  · exact h2 m e

/-- **C12 refuted** when a task is named "": `New` hands out "b", which is after "", immediately. -/
theorem C12_refuted : ∃ (targets : GoMap Str Int) (tasks : GoMap Str Task) (s : Scheduler)
    (out : List (Str × Str)), tasks.WF ∧ ValidTargets targets tasks ∧
    History targets tasks s out [] ∧ (b!"x", b!"b") ∈ out ∧ After tasks b!"b" b!"" := by
  refine ⟨[(b!"x", 2)], [(b!"", ⟨b!"x", []⟩), (b!"b", ⟨b!"x", [b!""]⟩)], _, _, by decide, ?_,
    History.new rfl, by decide, ⟨_, rfl, by decide⟩⟩
  intro t task h
  have := GoMap.mem_of_get? h
  simp only [List.mem_cons, Prod.mk.injEq, List.not_mem_nil, or_false] at this
  rcases this with ⟨rfl, rfl⟩ | ⟨rfl, rfl⟩ <;> exact ⟨2, by decide, by decide⟩

/-! ## C13 -/

/-- **C13.** Over any history each task is handed out at most once, only tasks of the runbook are,
and only under their own target. -/
theorem C13_handed_out_once_on_own_target {targets : GoMap Str Int} {tasks : GoMap Str Task}
    (wf : tasks.WF) {s : Scheduler} {out : List (Str × Str)} {calls : List Str}
    (h : History targets tasks s out calls) :
    (out.map Prod.snd).Nodup ∧
    ∀ q t, (q, t) ∈ out → ∃ task, tasks.get? t = some task ∧ task.target = q := by
  obtain ⟨rep, rel, h1, _⟩ := h.inv wf
  refine ⟨h1.out_nodup wf, ?_⟩
  intro q t hm
  obtain ⟨a, b⟩ := h1.mem_out hm
  have hk : t ∈ tasks.keys := by
    rw [← keys_depInput]; exact h1.dep.part.mem_iff.mp (List.mem_append_left _ a)
  obtain ⟨task, ht⟩ := GoMap.exists_get?_of_mem_keys hk
  rw [h1.tasksEq, targetOf_eq ht] at b
  exact ⟨task, ht, b⟩

/-! ## C14 -/

/-- **C14.** When `Next` is called once per handed-out task, at every moment at most
`ConcurrencyLimit` tasks of each target are handed out and uncompleted. -/
theorem C14_concurrency_limit {targets : GoMap Str Int} {tasks : GoMap Str Task}
    (wf : tasks.WF) (hlim : ∀ q n, targets.get? q = some n → 0 ≤ n) {s : Scheduler}
    {out : List (Str × Str)} {completed : List Str} (h : Protocol targets tasks s out completed) :
    ∀ q n, targets.get? q = some n → ((inFlight out completed q).length : Int) ≤ n := by
  obtain ⟨rel, h1, _, h3, _⟩ := h.inv wf
  intro q n hq
  rw [inFlight_length wf h1 h3]
  have := h3.le (by
    intro q'; unfold getInt
    cases e : targets.get? q' with
    | none => simp
    | some n' => simpa using hlim q' n' e) q
  simpa [getInt, hq] using this

/-! ## C15 -/

theorem getInt_valid {targets : GoMap Str Int} {tasks : GoMap Str Task}
    (hv : ValidTargets targets tasks) {t : Str} (ht : t ∈ tasks.keys) :
    1 ≤ getInt targets (targetOf (tasks.map (fun p => (p.1, p.2.target))) t) := by
  obtain ⟨task, h⟩ := GoMap.exists_get?_of_mem_keys ht
  rw [targetOf_eq h]
  obtain ⟨n, h1, h2⟩ := hv t task h
  simpa [getInt, h1] using h2

/-- **C15.** While some task has not been handed out, some handed-out task is uncompleted. -/
theorem C15_never_stalls {targets : GoMap Str Int} {tasks : GoMap Str Task}
    (wf : tasks.WF) (hv : ValidTargets targets tasks) {s : Scheduler}
    {out : List (Str × Str)} {completed : List Str} (h : Protocol targets tasks s out completed)
    (hrem : ∃ t ∈ tasks.keys, ∀ q, (q, t) ∉ out) : ∃ q c, (q, c) ∈ out ∧ c ∉ completed := by
  by_contra hno
  have hall : ∀ q c, (q, c) ∈ out → c ∈ completed := by
    intro q c hc; by_contra hn; exact hno ⟨q, c, hc, hn⟩
  obtain ⟨rel, h1, h2, h3, h4⟩ := h.inv wf
  have hzero : ∀ q, getInt s.targetLen q = 0 := by
    intro q
    rw [← inFlight_length wf h1 h3]
    have : inFlight out completed q = [] := by
      rw [inFlight, List.filter_eq_nil_iff]
      intro t ht
      simp only [List.mem_map, List.mem_filter, Prod.exists] at ht
      obtain ⟨q', t', ⟨ho, _⟩, rfl⟩ := ht
      simpa using hall q' t' ho
    rw [this]; rfl
  have hpart := h1.dep.part
  rw [keys_depInput] at hpart
  have hq : ∀ q, getQ s.pending q = [] := by
    intro q
    by_contra hne
    obtain ⟨t, ht⟩ := List.exists_mem_of_ne_nil _ hne
    have hrel : t ∈ rel.filter (fun t => targetOf s.tasks t = q) := by
      rw [← h1.fifo]; exact List.mem_append_right _ ht
    rw [List.mem_filter, decide_eq_true_eq] at hrel
    have hcap := getInt_valid hv (hpart.mem_iff.mp (List.mem_append_left _ hrel.1))
    rw [← h1.tasksEq, hrel.2] at hcap
    have := h3.full q hne
    rw [hzero] at this; omega
  have hp : s.deps.pending = [] := by
    cases e : s.deps.pending with
    | nil => rfl
    | cons x l =>
      exfalso
      obtain ⟨m, hm, hmn⟩ := h4 x l e
      have hme := head_deps_emitted h1.dep e m hm h2
      have : m ∈ rel.filter (fun t => targetOf s.tasks t = targetOf s.tasks m) := by simp [hme]
      rw [← h1.fifo, hq] at this
      simp only [List.append_nil, List.mem_map, List.mem_filter, Prod.exists] at this
      obtain ⟨q', t', ⟨ho, _⟩, rfl⟩ := this
      exact hmn (List.mem_cons_of_mem _ (hall q' _ ho))
  obtain ⟨t, ht, hnt⟩ := hrem
  obtain ⟨q, hq'⟩ := (noPending_iff_all wf h1).mp (by
    rw [(noPending_spec h1).2]; exact ⟨hp, hq⟩) t ht
  exact hnt q hq'

/-! ## C16 -/

/-- **C16.** `Next` returns `ErrNoPendingTasks` (`none`) iff every task has already been handed
out. -/
theorem C16_errNoPendingTasks_exact {targets : GoMap Str Int} {tasks : GoMap Str Task}
    (wf : tasks.WF) {s : Scheduler} {out : List (Str × Str)} {calls : List Str}
    (h : History targets tasks s out calls) (c : Str) :
    (s.next c).2 = none ↔ ∀ t ∈ tasks.keys, ∃ q, (q, t) ∈ out := by
  obtain ⟨rep, rel, h1, _⟩ := h.inv wf
  rw [next_none_iff, noPending_iff_all wf h1]

/-- **C16, consequence.** Driving the scheduler with completions until no handed-out task is
uncompleted hands out every task. -/
theorem C16_driving_hands_out_everything {targets : GoMap Str Int} {tasks : GoMap Str Task}
    (wf : tasks.WF) (hv : ValidTargets targets tasks) {s : Scheduler}
    {out : List (Str × Str)} {completed : List Str} (h : Protocol targets tasks s out completed)
    (hdone : ∀ q c, (q, c) ∈ out → c ∈ completed) : ∀ t ∈ tasks.keys, ∃ q, (q, t) ∈ out := by
  intro t ht
  by_contra hn
  obtain ⟨q, c, h1, h2⟩ := C15_never_stalls wf hv h ⟨t, ht, fun q hq => hn ⟨q, hq⟩⟩
  exact h2 (hdone q c h1)

/-! ## C17 -/

theorem Protocol.released {targets : GoMap Str Int} {tasks : GoMap Str Task} (wf : tasks.WF)
    {s : Scheduler} {out : List (Str × Str)} {completed : List Str}
    (h : Protocol targets tasks s out completed) :
    ∃ g, newDependencyGraph (depInput tasks) = some (.ok g) ∧
      s.deps = (g.run ([] :: completed)).1 ∧
      SInv tasks s ([] :: completed) (g.run ([] :: completed)).2.flatten out := by
  induction h with
  | new h =>
    obtain ⟨g, hg, _, _, h3, _, h5, _⟩ := new_pres wf h
    refine ⟨g, hg, ?_, ?_⟩
    · simpa [DepGraph.run] using h5
    · simpa [DepGraph.run] using h3
  | @next s s' out completed r _ q c _ _ hn ih =>
    obtain ⟨g, hg, hd, hi⟩ := ih
    obtain ⟨a1, _, a3⟩ := next_pres hi c hn
    obtain ⟨r1, r2⟩ := run_append g ([] :: completed) [c]
    refine ⟨g, hg, ?_, ?_⟩
    · rw [a3, hd, ← List.cons_append, r1]; rfl
    · rw [← List.cons_append, r2]
      rw [hd] at a1
      simpa [DepGraph.run] using a1

/-- **C17, capacity.** If the dependency graph has released task `t` of target `q` (limit `n`) and
`t` has not been handed out, then exactly `n` tasks of `q` are handed out and uncompleted. -/
theorem C17_waits_only_for_capacity {targets : GoMap Str Int} {tasks : GoMap Str Task}
    (wf : tasks.WF) (hlim : ∀ q n, targets.get? q = some n → 0 ≤ n) {s : Scheduler}
    {out : List (Str × Str)} {completed : List Str} (h : Protocol targets tasks s out completed) :
    ∃ g, newDependencyGraph (tasks.map (fun p => (p.1, p.2.after))) = some (.ok g) ∧
      ∀ t task n, t ∈ (g.run (b!"" :: completed)).2.flatten → tasks.get? t = some task →
        targets.get? task.target = some n → (task.target, t) ∉ out →
        ((inFlight out completed task.target).length : Int) = n := by
  obtain ⟨g, hg, _, hi⟩ := h.released wf
  obtain ⟨rel, h1, _, h3, _⟩ := h.inv wf
  refine ⟨g, hg, ?_⟩
  intro t task n ht hk hn ho
  have hmem : t ∈ (g.run ([] :: completed)).2.flatten.filter
      (fun t' => targetOf s.tasks t' = task.target) := by
    rw [List.mem_filter]
    refine ⟨ht, ?_⟩
    rw [hi.tasksEq, targetOf_eq hk]; simp
  rw [← hi.fifo] at hmem
  rcases List.mem_append.mp hmem with hm | hm
  · exfalso
    simp only [List.mem_map, List.mem_filter, Prod.exists, decide_eq_true_eq] at hm
    obtain ⟨q', t', ⟨ho', e⟩, rfl⟩ := hm
    subst e; exact ho ho'
  · have hf := h3.full task.target (List.ne_nil_of_mem hm)
    have hl := C14_concurrency_limit wf hlim h task.target n hn
    rw [inFlight_length wf h1 h3] at hl ⊢
    simp only [getInt, hn, Option.getD_some] at hf
    simp only [getInt] at hl ⊢
    omega

/-- **C17, order.** Per target, tasks are handed out in the order in which the dependency graph
released them. -/
theorem C17_fifo {targets : GoMap Str Int} {tasks : GoMap Str Task}
    (wf : tasks.WF) {s : Scheduler} {out : List (Str × Str)} {completed : List Str}
    (h : Protocol targets tasks s out completed) :
    ∃ g, newDependencyGraph (tasks.map (fun p => (p.1, p.2.after))) = some (.ok g) ∧
      ∀ q, (out.filter (fun p => p.1 = q)).map Prod.snd <+:
        (g.run (b!"" :: completed)).2.flatten.filter
          (fun t => (tasks.get? t).map Task.target = some q) := by
  obtain ⟨g, hg, _, hi⟩ := h.released wf
  refine ⟨g, hg, fun q => ?_⟩
  have he : (g.run ([] :: completed)).2.flatten.filter
      (fun t => (tasks.get? t).map Task.target = some q) =
      (g.run ([] :: completed)).2.flatten.filter (fun t => targetOf s.tasks t = q) := by
    apply List.filter_congr
    intro t ht
    have hk : t ∈ tasks.keys := by
      rw [← keys_depInput]; exact hi.dep.part.mem_iff.mp (List.mem_append_left _ ht)
    obtain ⟨task, h⟩ := GoMap.exists_get?_of_mem_keys hk
    rw [hi.tasksEq, targetOf_eq h, h]
    simp
  rw [he, ← hi.fifo q]
  exact List.prefix_append _ _

/-! ## Non-vacuity: a runbook with two targets, a diamond and a queue -/

/-- Example runbook: "x" has limit 1 and three tasks, "y" has limit 2. -/
def exTargets : GoMap Str Int := [(b!"x", 1), (b!"y", 2)]
/-- Example tasks. -/
def exTasks : GoMap Str Task :=
  [(b!"a", ⟨b!"x", []⟩), (b!"b", ⟨b!"x", []⟩), (b!"c", ⟨b!"y", [b!"a"]⟩),
   (b!"d", ⟨b!"y", [b!"b", b!"c"]⟩)]

example : exTasks.WF ∧ b!"" ∉ exTasks.keys := by decide
example : ValidTargets exTargets exTasks := by
  intro t task h
  have := GoMap.mem_of_get? h
  simp only [exTasks, List.mem_cons, Prod.mk.injEq, List.not_mem_nil, or_false] at this
  rcases this with ⟨rfl, rfl⟩ | ⟨rfl, rfl⟩ | ⟨rfl, rfl⟩ | ⟨rfl, rfl⟩
  · exact ⟨1, by decide, by decide⟩
  · exact ⟨1, by decide, by decide⟩
  · exact ⟨2, by decide, by decide⟩
  · exact ⟨2, by decide, by decide⟩
example : ∃ s out completed, Protocol exTargets exTasks s out completed ∧
    out = [(b!"x", b!"a"), (b!"x", b!"b"), (b!"y", b!"c")] ∧ completed = [b!"a"] ∧
    inFlight out completed b!"x" = [b!"b"] :=
  ⟨_, _, _, Protocol.next (Protocol.new rfl) b!"x" b!"a" (by decide) (by decide) rfl,
    by decide, by decide, by decide⟩

end Verif.Sched
