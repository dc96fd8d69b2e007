import Verif.Runner.Trace

/-!
# Properties C18-C26 (`internal/runbook/runner.go`)

`Reach targets tasks st`: some interleaving of the goroutines, with some outcome of every `Start`
and `Handle`, leads to `st`.  `st.trace` is the sequence of observable events so far and
`st.main = .returned e` says that `Run` has returned `e` (`none` is nil).
-/

namespace Verif.Runner
open Verif Dag Sched

/-- Every `After` names a task, and the `After` relation has no cycle. -/
structure ValidDeps (tasks : GoMap Str Task) : Prop where
  closed : ∀ t m, After tasks t m → m ∈ tasks.keys
  acyclic : ∀ t, ¬ Relation.TransGen (After tasks) t t

/-- No goroutine can move. -/
def Terminal (targets : GoMap Str Int) (tasks : GoMap Str Task) (st : St) : Prop :=
  ∀ st', ¬ Step targets tasks st st'

variable {targets : GoMap Str Int} {tasks : GoMap Str Task}

/-! ## C18 -/

/-- If anything is handled, all dependencies are on tasks of the runbook. -/
theorem Reach.known (wf : targets.WF) (wft : tasks.WF) {st : St} (h : Reach targets tasks st)
    {q t' t m : Str} (hs : .handleStart q t' ∈ st.trace) (hm : After tasks t m) : m ∈ tasks.keys := by
  obtain ⟨hc, hf⟩ := h.inv wf wft
  have ho := hf.runOut _ _ hs
  rcases hf.protocol with e | ⟨s, hp⟩
  · rw [e] at ho; cases ho
  · exact hp.history.known wft hm

/-- **C18 (partial).** Whenever `Handle` is called for `t`, it has already
returned nil for every `m` that `t` is after, on `m`'s own target, but for a task named "".
Missing: a dependency on a task named "" (`C12_refuted`). -/
theorem C18_run_dependency_order_partial (wf : targets.WF) (wft : tasks.WF)
    {st : St} (h : Reach targets tasks st) {pre post : List Event}
    {q t : Str} (ht : st.trace = pre ++ .handleStart q t :: post) {m : Str}
    (hm : After tasks t m) (hm0 : m ≠ b!"") :
    ∃ q' task', tasks.get? m = some task' ∧ task'.target = q' ∧ .handleEnd q' m true ∈ pre := by
  obtain ⟨st0, st1, h0, hs, e0, e1⟩ := h.split ht
  obtain ⟨hc, hf⟩ := h0.inv wf wft
  have hb := (step_handleStart hs (by rw [e1, e0])).2
  have ho := hf.beforeOut _ hb
  rcases hf.protocol with e | ⟨s, hp⟩
  · rw [e] at ho; cases ho
  · have hmc := C12_scheduler_dependencies_partial wft hp.history ho hm hm0
    obtain ⟨q', hq'⟩ := hf.okTr m (Or.inr (Or.inr hmc))
    obtain ⟨task', h1, h2⟩ := (C13_handed_out_once_on_own_target wft hp.history).2 q' m
      (hf.runOut q' m (hf.endTr q' m true hq'))
    exact ⟨q', task', h1, h2, e0 ▸ hq'⟩

/-! ## C19 -/

/-- **C19.** `Handle` is called at most once per task, only on the task's own target, and when it
is called every earlier `Handle` on that target has returned. -/
theorem C19_run_at_most_once_one_per_target (wf : targets.WF) (wft : tasks.WF) {st : St}
    (h : Reach targets tasks st) :
    (∀ t, starts st.trace t ≤ 1) ∧
    (∀ q t, .handleStart q t ∈ st.trace → ∃ task, tasks.get? t = some task ∧ task.target = q) ∧
    (∀ pre post q t, st.trace = pre ++ .handleStart q t :: post →
      ∀ t', .handleStart q t' ∈ pre → ∃ ok, .handleEnd q t' ok ∈ pre) := by
  obtain ⟨hc, hf⟩ := h.inv wf wft
  refine ⟨?_, ?_, ?_⟩
  · intro t
    have := hf.nstarts t
    have := hf.le_one wft t
    omega
  · intro q t ht
    have ho := hf.runOut q t ht
    rcases hf.protocol with e | ⟨s, hp⟩
    · rw [e] at ho; cases ho
    · exact (C13_handed_out_once_on_own_target wft hp.history).2 q t ho
  · intro pre post q t ht t' ht'
    obtain ⟨st0, st1, h0, hs, e0, e1⟩ := h.split ht
    have hi := (step_handleStart hs (by rw [e1, e0])).1
    rcases (h0.tinv wf wft).progress q t' (e0 ▸ ht') with e | e
    · rw [hi] at e; cases e
    · exact e0 ▸ e

/-! ## C20 -/

theorem new_ok (wft : tasks.WF) (hv : ValidDeps tasks) (e : DagError) :
    new targets tasks ≠ some (.error e) := by
  have wf' : (depInput tasks).WF := by
    simpa [depInput, GoMap.WF, GoMap.keys, Function.comp_def] using wft
  have hedge : Spec.Edge (depInput tasks) = After tasks := by
    funext a b; exact propext edge_depInput
  unfold new
  rcases newDependencyGraph_cases wf' with ⟨n, m, e, h1, h2⟩ | ⟨c, e, _, h1, _⟩ | ⟨g, e, _⟩
  · exfalso; rw [keys_depInput] at h2; exact h2 (hv.closed n m (edge_depInput.mp h1))
  · exfalso; rw [hedge] at h1; exact h1 hv.acyclic
  · simp only [depInput] at e; rw [e]; simp

/-- When the first loop ends because `ended` was closed, everything was handled successfully. -/
theorem all_ok (wf : targets.WF) (wft : tasks.WF) (hv : ValidDeps tasks) {st : St}
    (h : Reach targets tasks st)
    (hm : st.main = .loop2 none ∨ st.main = .returned none) :
    ∀ t ∈ tasks.keys, ∃ q, .handleEnd q t true ∈ st.trace := by
  induction h with
  | init order h => simp [Runner.init] at hm
  | @step st st' h hs ih =>
    obtain ⟨hc, hf⟩ := h.inv wf wft
    have mono : (st.main = .loop2 none ∨ st.main = .returned none) →
        ∀ t ∈ tasks.keys, ∃ q, .handleEnd q t true ∈ st'.trace := by
      intro hm t ht
      obtain ⟨q, hq⟩ := ih hm t ht
      refine ⟨q, ?_⟩
      rcases step_trace hs with e | ⟨_, e⟩
      · rw [e]; exact hq
      · rw [e]; exact List.mem_append_left _ hq
    cases hs with
    | mainEnd1 h1 he hr =>
      intro t ht
      obtain ⟨hst, hrd⟩ := hc.closing (Or.inr hr)
      have hdc : ¬ st.doneClosed = true := by
        rw [hc.closed, h1]; simp
      have hall : ∀ t ∈ tasks.keys, ∃ q, (q, t) ∈ st.out := by
        rcases hf.sched2 hst with ⟨⟨e, hn⟩, _⟩ | ⟨s, _, hd | ha⟩
        · exact absurd hn (new_ok wft hv e)
        · exact absurd hd hdc
        · exact ha
      obtain ⟨q, ho⟩ := hall t ht
      have hcnt := hf.count t
      have h1' : 1 ≤ (st.out.map Prod.snd).count t :=
        List.one_le_count_iff.mpr (List.mem_map.mpr ⟨_, ho, rfl⟩)
      have hb : st.before = [] := by simp [St.before, hst, hrd, hr, SchedPC.todo, RouterPC.held]
      have hrun : nRuns targets st t = 0 := by
        unfold nRuns
        rw [List.countP_eq_zero]
        intro q _
        rcases hc.allStopped hr q with e | e <;> simp [e, TgtPC.runs]
      have hrep : nReports targets st t = 0 := by
        unfold nReports
        rw [List.countP_eq_zero]
        intro q _
        rcases hc.allStopped hr q with e | e <;> simp [e, TgtPC.reports]
      have hac := after_count st t
      rw [he, h1] at hac
      rw [hb, hrun, hrep] at hcnt
      simp only [MainPC.held, List.map_nil, List.count_nil] at hac hcnt
      have : t ∈ st.done ∨ t ∈ st.completed ∨ t ∈ st.dropped := by
        by_contra hno
        push Not at hno
        have e1 := List.count_eq_zero.mpr hno.1
        have e2 := List.count_eq_zero.mpr hno.2.1
        have e3 := List.count_eq_zero.mpr hno.2.2
        omega
      rcases this with hd | hd | hd
      · exact hf.okTr t (Or.inr (Or.inl hd))
      · exact hf.okTr t (Or.inr (Or.inr hd))
      · rcases hf.dropOk t hd with e | ⟨_, e⟩
        · exact absurd e hdc
        · exact e
    | mainReturn e h1 he hr =>
      cases e with
      | none => exact mono (Or.inl h1)
      | some t => simp at hm
    | _ => exact mono (by simp_all)

theorem ends_two {st : St} {q q' t : Str} (h1 : .handleEnd q t false ∈ st.trace)
    (h2 : .handleEnd q' t true ∈ st.trace) : 2 ≤ ends st.trace t := by
  have hsub : List.Subperm [Event.handleEnd q t false, .handleEnd q' t true] st.trace :=
    List.Nodup.subperm (by simp) (by
      intro e he
      simp only [List.mem_cons, List.not_mem_nil, or_false] at he
      rcases he with rfl | rfl
      · exact h1
      · exact h2)
  have := hsub.countP_le (Event.isEnd t)
  simpa [ends, Event.isEnd] using this

theorem not_both (wf : targets.WF) (wft : tasks.WF) {st : St} (h : Reach targets tasks st)
    {q q' t : Str} (h1 : .handleEnd q t false ∈ st.trace)
    (h2 : .handleEnd q' t true ∈ st.trace) : False := by
  obtain ⟨_, hf⟩ := h.inv wf wft
  have := ends_two h1 h2
  have := hf.nends t
  have := hf.le_one wft t
  omega

/-- **C20 (partial).** For a runbook whose dependencies name existing tasks and have no cycle: if
`Run` returned nil, `Handle` was called exactly once for every task and returned nil.
Missing: runbooks with invalid dependencies (`C20_refuted`). -/
theorem C20_nil_means_all_succeeded_partial (wf : targets.WF) (wft : tasks.WF)
    (hv : ValidDeps tasks) {st : St} (h : Reach targets tasks st)
    (hret : st.main = .returned none) : ∀ t ∈ tasks.keys,
      starts st.trace t = 1 ∧ ∃ q, .handleEnd q t true ∈ st.trace := by
  intro t ht
  obtain ⟨hc, hf⟩ := h.inv wf wft
  obtain ⟨q, hq⟩ := all_ok wf wft hv h (Or.inr hret) t ht
  refine ⟨?_, q, hq⟩
  have h1 : 1 ≤ starts st.trace t := by
    have := hf.endTr q t true hq
    unfold starts
    rw [Nat.one_le_iff_ne_zero, ← Nat.pos_iff_ne_zero, List.countP_pos_iff]
    exact ⟨_, this, by simp [Event.isStart]⟩
  have := hf.nstarts t
  have := hf.le_one wft t
  omega

/-! ## C21 -/

/-- **C21/C22, bound.** Every run is finite: an execution of `n` steps has
`n ≤ 10 * #tasks + 3 * #targets + 9`, whatever fails. -/
theorem C21_every_schedule_is_finite (wf : targets.WF) (wft : tasks.WF) {order : List Str}
    (ho : order.Perm targets.keys) (run : Nat → St) (h0 : run 0 = init order) (n : Nat)
    (hs : ∀ i, i < n → Step targets tasks (run i) (run (i + 1))) :
    n ≤ 10 * tasks.length + 3 * targets.length + 9 := by
  have key : ∀ k, k ≤ n → Reach targets tasks (run k) ∧
      measure targets tasks (run k) + k ≤ measure targets tasks (run 0) := by
    intro k
    induction k with
    | zero => intro _; exact ⟨h0 ▸ Reach.init order ho, by omega⟩
    | succ k ih =>
      intro hk
      obtain ⟨h1, h2⟩ := ih (by omega)
      have hst := hs k (by omega)
      obtain ⟨hc, hf⟩ := h1.inv wf wft
      have := measure_decreases wf wft hc hf hst
      exact ⟨Reach.step h1 hst, by omega⟩
  have h1 := (key n (le_refl n)).2
  have h2 : measure targets tasks (run 0) = 10 * tasks.length + 3 * targets.length + 9 := by
    rw [h0]
    have : ∀ l : List Str, (l.map (fun _ => 3)).sum = 3 * l.length := by
      intro l; induction l with
      | nil => rfl
      | cons a l ih => simp only [List.map_cons, List.sum_cons, ih, List.length_cons]; omega
    have h3 := this targets.keys
    have h4 : targets.keys.length = targets.length := by simp [GoMap.keys]
    simp only [measure, Runner.init, SchedPC.todo, RouterPC.held, MainPC.held, SchedPC.weight,
      RouterPC.weight, MainPC.weight, tgtWeight, TgtPC.weight, List.length_nil, h3, h4]
    omega
  omega

/-- **C21 (partial).** For a runbook with at least one task whose targets exist and have limit at
least 1: if no `Start` and no `Handle` fails, then wherever the goroutines can go no further,
`Run` has returned nil.  (With `C21_every_schedule_is_finite`: every schedule ends there.)
Missing: runbooks without tasks (`C21_refuted`). -/
theorem C21_no_deadlock_when_all_succeed_partial (wf : targets.WF) (wft : tasks.WF)
    (hv : ValidTargets targets tasks) (hlim : ∀ q n, targets.get? q = some n → 1 ≤ n)
    (hne : tasks ≠ []) {st : St} (h : Reach targets tasks st)
    (hstart : ∀ q, .startFailed q ∉ st.trace)
    (hok : ∀ q t, .handleEnd q t false ∉ st.trace) (hterm : Terminal targets tasks st) :
    st.main = .returned none := by
  obtain ⟨hc, hf⟩ := h.inv wf wft
  cases e : st.main with
  | returned x =>
    cases x with
    | none => rfl
    | some x =>
      cases x with
      | start q => exact absurd ((hc.startErr q).mpr (Or.inr e)) (hstart q)
      | task t =>
        obtain ⟨q, hq⟩ := hc.taskErr t (Or.inr e)
        exact absurd hq (hok q t)
  | _ =>
    exfalso
    obtain ⟨st', hs⟩ := progress wf wft hv (fun q n hq => by have := hlim q n hq; omega) hne hc hf
      (fun q t hq => absurd hq (hok q t)) (by rw [e]; simp)
    exact hterm st' hs

/-! ## C23 -/

/-- **C23.** The error `Run` returns is that of a `Start` or `Handle` that failed; `Run` does not
return nil if a `Start` or a `Handle` failed. -/
theorem C23_run_reports_failure (wf : targets.WF) (wft : tasks.WF) {st : St}
    (h : Reach targets tasks st) :
    (∀ q, st.main = .returned (some (.start q)) → .startFailed q ∈ st.trace) ∧
    (∀ t, st.main = .returned (some (.task t)) → ∃ q, .handleEnd q t false ∈ st.trace) ∧
    (st.main = .returned none → (∀ q, .startFailed q ∉ st.trace) ∧
      ∀ q t, .handleEnd q t false ∉ st.trace) := by
  obtain ⟨hc, hf⟩ := h.inv wf wft
  refine ⟨fun q e => (hc.startErr q).mpr (Or.inr e), fun t e => hc.taskErr t (Or.inr e), ?_⟩
  intro e
  refine ⟨fun q hq => ?_, ?_⟩
  · rcases (hc.startErr q).mp hq with h' | h' <;> rw [e] at h' <;> simp at h'
  · have key : ∀ st, Reach targets tasks st → (st.main = .loop2 none ∨ st.main = .returned none) →
        ∀ q t, .handleEnd q t false ∉ st.trace := by
      clear e hc hf h
      intro st h
      induction h with
      | init order h => intro _; simp [Runner.init]
      | @step st st' h hs ih =>
        intro hm
        obtain ⟨hc, hf⟩ := h.inv wf wft
        by_cases hprev : st.main = .loop2 none ∨ st.main = .returned none
        · have hall : ∀ q, st.tgt q = .notStarted ∨ st.tgt q = .stopped := by
            apply hc.allStopped
            rcases hprev with e | e
            · exact (hc.loop2 e).1
            · rcases hc.ret _ e with ⟨q, e'⟩ | e'
              · cases e'
              · exact e'.1
          have hih := ih hprev
          intro q t hq
          rcases step_trace hs with e | ⟨x, e⟩
          · exact hih q t (e ▸ hq)
          · rw [e] at hq
            rcases List.mem_append.mp hq with hq | hq
            · exact hih q t hq
            · simp only [List.mem_singleton] at hq; subst hq
              have := step_handleEnd hs e
              rcases hall q with e' | e' <;> rw [e'] at this <;> cases this
        · cases hs with
          | mainEnd1 h1 he hr =>
            intro q t hq
            -- the failed task would have to be in a location that is empty
            have hdc : ¬ st.doneClosed = true := by rw [hc.closed, h1]; simp
            have hends : 1 ≤ ends st.trace t := by
              unfold ends
              rw [Nat.one_le_iff_ne_zero, ← Nat.pos_iff_ne_zero, List.countP_pos_iff]
              exact ⟨_, hq, by simp [Event.isEnd]⟩
            have hne := hf.nends t
            have hac := after_count st t
            have hrep : nReports targets st t = 0 := by
              unfold nReports
              rw [List.countP_eq_zero]
              intro q _
              rcases hc.allStopped hr q with e | e <;> simp [e, TgtPC.reports]
            rw [he, h1] at hac
            simp only [MainPC.held, List.map_nil, List.count_nil] at hac
            have : t ∈ st.done ∨ t ∈ st.completed ∨ t ∈ st.dropped := by
              by_contra hno
              push Not at hno
              have e1 := List.count_eq_zero.mpr hno.1
              have e2 := List.count_eq_zero.mpr hno.2.1
              have e3 := List.count_eq_zero.mpr hno.2.2
              omega
            have : ∃ q, .handleEnd q t true ∈ st.trace := by
              rcases this with hd | hd | hd
              · exact hf.okTr t (Or.inr (Or.inl hd))
              · exact hf.okTr t (Or.inr (Or.inr hd))
              · rcases hf.dropOk t hd with e | ⟨_, e⟩
                · exact absurd e hdc
                · exact e
            obtain ⟨q', hq'⟩ := this
            exact not_both wf wft h hq hq'
          | mainReturn e h1 he hr =>
            cases e with
            | none => exact absurd (Or.inl h1) hprev
            | some t => simp at hm
          | _ => exact absurd (by simp_all) hprev
    exact key st h (Or.inr e)

/-! ## C22 -/

/-- **C22 (partial).** For a runbook with at least one task: if every target on which some `Handle`
failed has limit 1, then wherever the goroutines can go no further, `Run` has returned, and it
has returned an error if some `Handle` failed.
Missing: a failing task on a target with limit 2 or more (`C22_refuted`). -/
theorem C22_no_deadlock_on_failure_partial (wf : targets.WF) (wft : tasks.WF)
    (hv : ValidTargets targets tasks) (hlim : ∀ q n, targets.get? q = some n → 1 ≤ n)
    (hne : tasks ≠ []) {st : St} (h : Reach targets tasks st)
    (hfail : ∀ q t, .handleEnd q t false ∈ st.trace → targets.get? q = some 1)
    (hterm : Terminal targets tasks st) : ∃ e, st.main = .returned e ∧
      ((∃ q t, .handleEnd q t false ∈ st.trace) → e ≠ none) := by
  obtain ⟨hc, hf⟩ := h.inv wf wft
  cases e : st.main with
  | returned x =>
    refine ⟨x, rfl, ?_⟩
    rintro ⟨q, t, hq⟩ rfl
    exact ((C23_run_reports_failure wf wft h).2.2 e).2 q t hq
  | _ =>
    exfalso
    obtain ⟨st', hs⟩ := progress wf wft hv (fun q n hq => by have := hlim q n hq; omega) hne hc hf
      hfail (by rw [e]; simp)
    exact hterm st' hs

/-! ## C23, continued -/

/-- **C23, dependents (partial).** A task after one whose `Handle` failed is never handled, unless the one that
failed is named "".  Missing: a dependency on a task named "" (`C12_refuted`). -/
theorem C23_dependents_of_failed_never_run_partial (wf : targets.WF) (wft : tasks.WF)
    {st : St} (h : Reach targets tasks st) {q t q' m : Str}
    (hm : After tasks t m) (hm0 : m ≠ b!"") (hfail : .handleEnd q' m false ∈ st.trace) :
    .handleStart q t ∉ st.trace := by
  intro hs
  obtain ⟨pre, post, e⟩ := List.append_of_mem hs
  obtain ⟨q2, _, _, _, h2⟩ := C18_run_dependency_order_partial wf wft h e hm hm0
  exact not_both wf wft h hfail (e ▸ List.mem_append_left _ h2)

/-! ## C24 -/

/-- **C24.** The three channels together never hold more messages than the sum of the concurrency
limits (half the capacity of each), and a goroutine about to send on one finds room. -/
theorem C24_channels_never_overflow (wf : targets.WF) (wft : tasks.WF)
    (hv : ValidTargets targets tasks) (hlim : ∀ q n, targets.get? q = some n → 1 ≤ n) {st : St}
    (h : Reach targets tasks st) :
    ((st.ready.length + st.ended.length + st.done.length : Nat) : Int) ≤
      (targets.map Prod.snd).sum ∧
    (∀ s p l, st.sched = .sending s (p :: l) → (st.ready.length : Int) < capacity targets) ∧
    (∀ q t ok, st.tgt q = .reporting t ok → (st.ended.length : Int) < capacity targets) ∧
    (∀ t, st.main = .sendDone t → (st.done.length : Int) < capacity targets) := by
  obtain ⟨hc, hf⟩ := h.inv wf wft
  obtain ⟨h1, h2⟩ := occupancy wf wft hv (fun q n hq => by have := hlim q n hq; omega) hc hf
  have hcap : capacity targets = 2 * (targets.map Prod.snd).sum := rfl
  have hlen : st.inChannels.length = st.sched.todo.length + st.ready.length +
      st.router.held.length + (st.ended.length + st.main.held.length + st.done.length) := by
    simp [St.inChannels, St.before]; omega
  refine ⟨by push_cast; omega, ?_, ?_, ?_⟩
  · intro s p l e
    have : st.sched.todo.length = l.length + 1 := by rw [e]; rfl
    omega
  · intro q t ok e
    have := h2 q t ok e
    omega
  · intro t e
    have : st.main.held.length = 1 := by rw [e]; rfl
    omega

/-- **C24**, the consequence: no send blocks. A goroutine that is about to send its message can do so at once, as
the next step of the program. -/
theorem C24_no_send_blocks (wf : targets.WF) (wft : tasks.WF)
    (hv : ValidTargets targets tasks) (hlim : ∀ q n, targets.get? q = some n → 1 ≤ n) {st : St}
    (h : Reach targets tasks st) :
    (∀ s p l, st.sched = .sending s (p :: l) →
      ∃ st', Step targets tasks st st' ∧ st'.ready = st.ready ++ [p] ∧ st'.sched = .sending s l) ∧
    (∀ q t ok, st.tgt q = .reporting t ok →
      ∃ st', Step targets tasks st st' ∧ st'.ended = st.ended ++ [(t, ok)] ∧ ∀ t' ok', st'.tgt q ≠ .reporting t' ok') ∧
    (∀ t, st.main = .sendDone t →
      ∃ st', Step targets tasks st st' ∧ st'.done = st.done ++ [t] ∧ st'.main = .loop1) := by
  obtain ⟨-, h1, h2, h3⟩ := C24_channels_never_overflow wf wft hv hlim h
  refine ⟨fun s p l e => ⟨_, .schedSend st s p l e (h1 s p l e), rfl, rfl⟩,
    fun q t ok e => ⟨_, .report st q t ok e (h2 q t ok e), rfl, ?_⟩,
    fun t e => ⟨_, .mainSend st t e (h3 t e), rfl, rfl⟩⟩
  intro t' ok'
  simp only [Function.update_self]
  split <;> simp

/-! ## C25 -/

/-- **C25.** When `Run` has returned and no `Start` failed: every target was started once and
stopped once, every `Handle` that was called has returned, and no goroutine can do anything any
more. -/
theorem C25_clean_shutdown (wf : targets.WF) (wft : tasks.WF) {st : St}
    (h : Reach targets tasks st) {e : Option RunErr} (hret : st.main = .returned e)
    (hstart : ∀ q, .startFailed q ∉ st.trace) :
    (∀ q ∈ targets.keys, st.trace.count (.started q) = 1 ∧ st.trace.count (.stopped q) = 1) ∧
    (∀ q t, .handleStart q t ∈ st.trace → ∃ ok, .handleEnd q t ok ∈ st.trace) ∧
    Terminal targets tasks st := by
  obtain ⟨hc, hf⟩ := h.inv wf wft
  have ht := h.tinv wf wft
  have hr : st.router = .stopped ∧ st.ended = [] := by
    rcases hc.ret e hret with ⟨q, rfl⟩ | h'
    · exact absurd ((hc.startErr q).mpr (Or.inr hret)) (hstart q)
    · exact h'
  have hne : ∀ q, e ≠ some (.start q) := by
    rintro q rfl; exact hstart q ((hc.startErr q).mpr (Or.inr hret))
  have hall := hc.allStopped hr.1
  have hst : ∀ q ∈ targets.keys, st.tgt q ≠ .notStarted := by
    apply hc.started
    rw [hret]
    cases e with
    | none => rfl
    | some x =>
      cases x with
      | start q => exact absurd rfl (hne q)
      | task t => rfl
  refine ⟨?_, ?_, ?_⟩
  · intro q hq
    have h1 := ht.startedIff q
    have h2 := ht.stops q
    rcases hall q with e' | e'
    · exact absurd e' (hst q hq)
    · rw [e'] at h1 h2; simpa using ⟨h1, h2⟩
  · intro q t hq
    rcases ht.progress q t hq with e' | e'
    · rcases hall q with e'' | e'' <;> rw [e''] at e' <;> cases e'
    · exact e'
  · obtain ⟨hs, hrd⟩ := hc.closing (Or.inr hr.1)
    obtain ⟨hr1, hr2⟩ := hr
    intro st' hstep
    cases hstep <;> (try simp_all) <;> grind

/-- **C25, order.** After a target was stopped, `Handle` is neither called nor returns on it. -/
theorem C25_stopped_after_last_handle (wf : targets.WF) (wft : tasks.WF) {st : St}
    (h : Reach targets tasks st) {pre post : List Event} {q : Str}
    (ht : st.trace = pre ++ .stopped q :: post) :
    (∀ t, .handleStart q t ∉ post) ∧ (∀ t ok, .handleEnd q t ok ∉ post) ∧
    (∀ t, .handleStart q t ∈ pre → ∃ ok, .handleEnd q t ok ∈ pre) := by
  refine ⟨?_, ?_, ?_⟩
  · intro t hm
    obtain ⟨p1, p2, e⟩ := List.append_of_mem hm
    rw [e, ← List.cons_append, ← List.append_assoc] at ht
    obtain ⟨st0, st1, h0, hs, e0, e1⟩ := h.split ht
    have hi := (step_handleStart hs (by rw [e1, e0])).1
    have := (h0.tinv wf wft).stops q
    rw [e0, hi] at this
    simp at this
  · intro t ok hm
    obtain ⟨p1, p2, e⟩ := List.append_of_mem hm
    rw [e, ← List.cons_append, ← List.append_assoc] at ht
    obtain ⟨st0, st1, h0, hs, e0, e1⟩ := h.split ht
    have hi := step_handleEnd hs (by rw [e1, e0])
    have := (h0.tinv wf wft).stops q
    rw [e0, hi] at this
    simp at this
  · intro t hm
    obtain ⟨st0, st1, h0, hs, e0, e1⟩ := h.split ht
    have hi : st0.tgt q = .stopping := by cases hs <;> simp_all
    rcases (h0.tinv wf wft).progress q t (e0 ▸ hm) with e | e
    · rw [hi] at e; cases e
    · exact e0 ▸ e

/-! ## C26 -/

/-- **C26 (partial).** If a target's `Start` failed, `Run` returns that error (it has, wherever the
goroutines can go no further), and no further target is started.
Missing: "no task is executed" (`C26_refuted`). -/
theorem C26_start_failure_is_returned_partial (wf : targets.WF) (wft : tasks.WF) {st : St}
    (h : Reach targets tasks st) {pre post : List Event} {q : Str}
    (ht : st.trace = pre ++ .startFailed q :: post) :
    (∀ e, st.main = .returned e → e = some (.start q)) ∧
    (Terminal targets tasks st → st.main = .returned (some (.start q))) ∧
    (∀ q', .started q' ∉ post) := by
  obtain ⟨hc, hf⟩ := h.inv wf wft
  have hm := (hc.startErr q).mp (by rw [ht]; simp)
  refine ⟨?_, ?_, ?_⟩
  · intro e he
    rcases hm with h' | h' <;> rw [he] at h'
    · cases h'
    · simpa using h'
  · intro hterm
    rcases hm with h' | h'
    · exact absurd (Step.returnStartErr st q h') (hterm _)
    · exact h'
  · intro q' hq'
    obtain ⟨p1, p2, e⟩ := List.append_of_mem hq'
    rw [e, ← List.cons_append, ← List.append_assoc] at ht
    obtain ⟨st0, st1, h0, hs, e0, e1⟩ := h.split ht
    have hm0 := ((h0.inv wf wft).1.startErr q).mp (by rw [e0]; simp)
    cases hs <;> simp_all

end Verif.Runner
