import Verif.Runner.Examples

/-!
# C138: a run that was killed can be resumed

Every state that is reached is one in which the program may be killed; what it has done is in the trace.
-/

namespace Verif.Runner
open Verif Dag Sched

/-- The task has ended without an error. -/
def Succeeded (tr : List Event) (t : Str) : Prop := ∃ q, .handleEnd q t true ∈ tr

/-- `rest` is the runbook `tasks` without the tasks that have succeeded, and without the dependencies on them. -/
structure Rest (tr : List Event) (tasks rest : GoMap Str Task) : Prop where
  wf : rest.WF
  done : ∀ t, Succeeded tr t → t ∉ rest.keys
  new : ∀ t ∈ rest.keys, t ∈ tasks.keys
  left : ∀ t task, tasks.get? t = some task → ¬ Succeeded tr t → ∃ task', rest.get? t = some task' ∧
    task'.target = task.target ∧ ∀ m, m ∈ task'.after ↔ m ∈ task.after ∧ ¬ Succeeded tr m

variable {targets : GoMap Str Int} {tasks rest : GoMap Str Task}

theorem Rest.after {tr : List Event} (r : Rest tr tasks rest) {t m : Str} :
    After rest t m ↔ After tasks t m ∧ ¬ Succeeded tr t ∧ ¬ Succeeded tr m := by
  constructor
  · rintro ⟨task', h1, h2⟩
    have hk := GoMap.mem_keys_of_get? h1
    have hd : ¬ Succeeded tr t := fun h => r.done t h hk
    obtain ⟨task, h3⟩ := GoMap.exists_get?_of_mem_keys (r.new t hk)
    obtain ⟨task'', h4, _, h5⟩ := r.left t task h3 hd
    rw [h1] at h4
    cases h4
    exact ⟨⟨task, h3, ((h5 m).1 h2).1⟩, hd, ((h5 m).1 h2).2⟩
  · rintro ⟨⟨task, h1, h2⟩, h3, h4⟩
    obtain ⟨task', h5, _, h6⟩ := r.left t task h1 h3
    exact ⟨task', h5, (h6 m).2 ⟨h2, h4⟩⟩

theorem Rest.validDeps {tr : List Event} (r : Rest tr tasks rest) (hv : ValidDeps tasks) : ValidDeps rest := by
  refine ⟨?_, ?_⟩
  · intro t m h
    obtain ⟨h1, _, h3⟩ := r.after.1 h
    obtain ⟨task, h4⟩ := GoMap.exists_get?_of_mem_keys (hv.closed t m h1)
    obtain ⟨task', h5, _⟩ := r.left m task h4 h3
    exact GoMap.mem_keys_of_get? h5
  · intro t h
    exact hv.acyclic t (Relation.TransGen.mono (fun a b h => (r.after.1 h).1) _ _ h)

theorem Rest.validTargets {tr : List Event} (r : Rest tr tasks rest) (hv : ValidTargets targets tasks) :
    ValidTargets targets rest := by
  intro t task' h
  have hk := GoMap.mem_keys_of_get? h
  obtain ⟨task, h1⟩ := GoMap.exists_get?_of_mem_keys (r.new t hk)
  obtain ⟨task'', h2, h3, _⟩ := r.left t task h1 (fun hd => r.done t hd hk)
  rw [h] at h2
  cases h2
  rw [h3]
  exact hv t task h1

/-- **C138: what a run that is killed leaves behind (partial).** At every moment of every run: if a task has begun, all
the tasks it depends on, directly or through others, have ended without an error; on every target at most one task has
begun and not ended.
Missing: a dependency on a task named "" (`C138_refuted`). -/
theorem C138_killed_partial (wf : targets.WF) (wft : tasks.WF) {st : St} (h : Reach targets tasks st) :
    (∀ q t, .handleStart q t ∈ st.trace →
      ∀ m, Relation.TransGen (fun a b => After tasks a b ∧ b ≠ b!"") t m → Succeeded st.trace m) ∧
    ∀ q t t', .handleStart q t ∈ st.trace → .handleStart q t' ∈ st.trace →
      (∀ ok, .handleEnd q t ok ∉ st.trace) → (∀ ok, .handleEnd q t' ok ∉ st.trace) → t = t' := by
  constructor
  · intro q t hs m hm
    have direct : ∀ {q a b : Str}, .handleStart q a ∈ st.trace → After tasks a b → b ≠ b!"" →
        Succeeded st.trace b := by
      intro q a b hs hab hb
      obtain ⟨pre, post, e⟩ := List.append_of_mem hs
      obtain ⟨q', _, _, _, h3⟩ := C18_run_dependency_order_partial wf wft h e hab hb
      exact ⟨q', by rw [e]; exact List.mem_append_left _ h3⟩
    induction hm with
    | single hm => exact direct hs hm.1 hm.2
    | tail _ hm ih =>
      obtain ⟨q', hq'⟩ := ih
      exact direct ((h.inv wf wft).2.endTr _ _ true hq') hm.1 hm.2
  · intro q t t' h1 h2 h3 h4
    by_contra hne
    obtain ⟨pre, post, e⟩ := List.append_of_mem h1
    have h5 := (C19_run_at_most_once_one_per_target wf wft h).2.2
    rw [e] at h2
    rcases List.mem_append.1 h2 with h2 | h2
    · obtain ⟨ok, h6⟩ := h5 pre post q t e t' h2
      exact h4 ok (by rw [e]; exact List.mem_append_left _ h6)
    · rcases List.mem_cons.1 h2 with h2 | h2
      · cases h2; exact hne rfl
      · obtain ⟨pre', post', e'⟩ := List.append_of_mem h2
        obtain ⟨ok, h6⟩ := h5 (pre ++ .handleStart q t :: pre') post' q t' (by rw [e, e']; simp) t (by simp)
        refine h3 ok ?_
        rw [e, e']
        simp only [List.mem_append, List.mem_cons] at h6 ⊢
        tauto

/-- **C138 (partial).** A run of a valid runbook is killed at any moment (or has failed); the tasks that have succeeded
are taken out of the runbook and the rest is run.  Then no task that has succeeded is done again, no task begins before
all it is after have succeeded, in this run or in the one before, and if this run returns nil every task of the runbook
has succeeded exactly once.
Missing: a dependency on a task named "" (`C138_refuted`). -/
theorem C138_resume_partial (wf : targets.WF) (wft : tasks.WF) (hv : ValidDeps tasks) {st st' : St}
    (h : Reach targets tasks st) (r : Rest st.trace tasks rest) (h' : Reach targets rest st') :
    (∀ q t, .handleStart q t ∈ st'.trace → t ∈ tasks.keys ∧ ¬ Succeeded st.trace t) ∧
    (∀ pre post q t, st'.trace = pre ++ .handleStart q t :: post → ∀ m, After tasks t m → m ≠ b!"" →
      Succeeded (st.trace ++ pre) m) ∧
    (st'.main = .returned none → ∀ t ∈ tasks.keys,
      (Succeeded st.trace t ∧ starts st.trace t = 1 ∧ starts st'.trace t = 0) ∨
      (¬ Succeeded st.trace t ∧ Succeeded st'.trace t ∧ starts st'.trace t = 1)) := by
  have hrun : ∀ q t, .handleStart q t ∈ st'.trace → t ∈ rest.keys := by
    intro q t hs
    obtain ⟨task, h1, _⟩ := (C19_run_at_most_once_one_per_target wf r.wf h').2.1 q t hs
    exact GoMap.mem_keys_of_get? h1
  have hnot : ∀ q t, .handleStart q t ∈ st'.trace → ¬ Succeeded st.trace t :=
    fun q t hs hd => r.done t hd (hrun q t hs)
  refine ⟨fun q t hs => ⟨r.new t (hrun q t hs), hnot q t hs⟩, ?_, ?_⟩
  · intro pre post q t e m hm hm0
    by_cases hd : Succeeded st.trace m
    · obtain ⟨q', hq'⟩ := hd
      exact ⟨q', List.mem_append_left _ hq'⟩
    · have hs : .handleStart q t ∈ st'.trace := by rw [e]; simp
      obtain ⟨q', _, _, _, h3⟩ :=
        C18_run_dependency_order_partial wf r.wf h' e (r.after.2 ⟨hm, hnot q t hs, hd⟩) hm0
      exact ⟨q', List.mem_append_right _ h3⟩
  · intro hret t ht
    by_cases hd : Succeeded st.trace t
    · refine .inl ⟨hd, ?_, ?_⟩
      · obtain ⟨q, hq⟩ := hd
        have h1 := (C19_run_at_most_once_one_per_target wf wft h).1 t
        have h2 : 0 < starts st.trace t :=
          List.countP_pos_iff.2 ⟨_, (h.inv wf wft).2.endTr q t true hq, by simp [Event.isStart]⟩
        omega
      · refine Nat.eq_zero_of_not_pos fun hp => ?_
        obtain ⟨e, he, hi⟩ := List.countP_pos_iff.1 hp
        cases e with
        | handleStart q t2 =>
          have : t2 = t := by simpa [Event.isStart] using hi
          subst this
          exact hnot q t2 he hd
        | _ => simp [Event.isStart] at hi
    · obtain ⟨task, h1⟩ := GoMap.exists_get?_of_mem_keys ht
      obtain ⟨task', h2, _⟩ := r.left t task h1 hd
      obtain ⟨h3, q, h4⟩ := C20_nil_means_all_succeeded_partial wf r.wf (r.validDeps hv) h' hret t
        (GoMap.mem_keys_of_get? h2)
      exact .inr ⟨hd, ⟨q, h4⟩, h3⟩

/-- **C138: resuming comes to an end.** If something is left to do and nothing fails, then where no goroutine can go on
`Run` has returned nil.  (If nothing is left it waits for ever: `C21_no_tasks`.) -/
theorem C138_ends (wf : targets.WF) (hvt : ValidTargets targets tasks)
    (hlim : ∀ q n, targets.get? q = some n → 1 ≤ n) {tr : List Event} (r : Rest tr tasks rest)
    (hleft : ∃ t ∈ tasks.keys, ¬ Succeeded tr t) {st' : St} (h' : Reach targets rest st')
    (hstart : ∀ q, .startFailed q ∉ st'.trace) (hok : ∀ q t, .handleEnd q t false ∉ st'.trace)
    (hterm : Terminal targets rest st') : st'.main = .returned none := by
  refine C21_no_deadlock_when_all_succeed_partial wf r.wf (r.validTargets hvt) hlim ?_ h' hstart hok hterm
  rintro rfl
  obtain ⟨t, ht, hd⟩ := hleft
  obtain ⟨task, h1⟩ := GoMap.exists_get?_of_mem_keys ht
  obtain ⟨task', h2, _⟩ := r.left t task h1 hd
  simp [GoMap.get?] at h2

/-- There is such a rest. -/
theorem exists_rest (wft : tasks.WF) (tr : List Event) : ∃ rest, Rest tr tasks rest := by
  classical
  let f : Str × Task → Str × Task := fun p => (p.1, ⟨p.2.target, p.2.after.filter fun m => ¬ Succeeded tr m⟩)
  let rest : GoMap Str Task := (tasks.filter fun p => ¬ Succeeded tr p.1).map f
  have hk : rest.keys = tasks.keys.filter fun t => ¬ Succeeded tr t := by
    simp only [rest, GoMap.keys, List.map_map, List.filter_map]
    rfl
  have hwf : rest.WF := by
    unfold GoMap.WF
    rw [hk]
    exact List.Nodup.filter _ wft
  refine ⟨rest, hwf, ?_, ?_, ?_⟩
  · intro t hd
    rw [hk]
    simp [hd]
  · intro t ht
    rw [hk] at ht
    exact (List.mem_filter.1 ht).1
  · intro t task ht hd
    have hm : f (t, task) ∈ rest := List.mem_map.2 ⟨(t, task), by simpa [hd] using GoMap.mem_of_get? ht, rfl⟩
    refine ⟨_, GoMap.get?_of_mem hwf hm, rfl, fun m => ?_⟩
    simp

/-- **C138 refuted**: "b" is after the task named "", which has failed; nothing has succeeded, and when the runbook is
run again "b" begins although "" has failed again. -/
theorem C138_refuted : ¬ ∀ (targets : GoMap Str Int) (tasks rest : GoMap Str Task) (st st' : St),
    targets.WF → tasks.WF → ValidTargets targets tasks → ValidDeps tasks → Reach targets tasks st →
    Rest st.trace tasks rest → Reach targets rest st' → ∀ pre post q t,
    st'.trace = pre ++ .handleStart q t :: post → ∀ m, After tasks t m → Succeeded (st.trace ++ pre) m := by
  intro hall
  obtain ⟨st, h, hv, hd, ha, htr⟩ := C18_refuted
  have hno : ∀ t, ¬ Succeeded st.trace t := by
    rintro t ⟨q, hq⟩
    rw [htr] at hq
    simp at hq
  have r : Rest st.trace unnamedTasks unnamedTasks := by
    refine ⟨by decide, fun t ht => absurd ht (hno t), fun t ht => ht, fun t task ht _ => ⟨task, ht, rfl, fun m => ?_⟩⟩
    simp [hno m]
  obtain ⟨q, hq⟩ := hall unnamedTargets unnamedTasks unnamedTasks st st (by decide) (by decide) hv hd h r h
    [.started b!"x", .started b!"y", .handleStart b!"x" b!"", .handleEnd b!"x" b!"" false] [] b!"y" b!"b"
    (by rw [htr]; rfl) b!"" ha
  rw [htr] at hq
  simp at hq

/-- A run is killed when "a" is done and "b", which is after it, has begun; what is left is "b" alone. -/
example : ∃ st, Reach okTargets okTasks st ∧ Rest st.trace okTasks [(b!"b", ⟨b!"x", []⟩)] ∧
    Succeeded st.trace b!"a" ∧ .handleStart b!"x" b!"b" ∈ st.trace := by
  have r0 : Reach okTargets okTasks _ := Reach.init [b!"x"] (List.Perm.refl _)
  have r1 := Reach.step r0 (Step.targetStart _ b!"x" [] rfl)
  have r2 := Reach.step r1 (Step.targetsStarted _ rfl)
  have r3 := Reach.step r2 (Step.schedNew _ _ _ _ rfl rfl (List.Perm.refl _))
  have r4 := Reach.step r3 (Step.schedSend _ _ (b!"x", b!"a") [] rfl (by decide))
  have r5 := Reach.step r4 (Step.routerRecv _ b!"x" b!"a" [] rfl rfl)
  have r6 := Reach.step r5 (Step.routerSend _ b!"x" b!"a" rfl rfl)
  have r7 := Reach.step r6 (Step.handleEnd _ b!"x" b!"a" true rfl)
  have r8 := Reach.step r7 (Step.report _ b!"x" b!"a" true rfl (by decide))
  have r9 := Reach.step r8 (Step.mainOk _ b!"a" [] rfl rfl)
  have r10 := Reach.step r9 (Step.mainSend _ b!"a" rfl (by decide))
  have r11 := Reach.step r10 (Step.schedNext _ _ _ b!"a" [] _ _ rfl rfl rfl (List.Perm.refl _))
  have r12 := Reach.step r11 (Step.schedSend _ _ (b!"x", b!"b") [] rfl (by decide))
  have r13 := Reach.step r12 (Step.routerRecv _ b!"x" b!"b" [] rfl rfl)
  have r14 := Reach.step r13 (Step.routerSend _ b!"x" b!"b" rfl rfl)
  have key : ∀ tr : List Event, tr = [.started b!"x", .handleStart b!"x" b!"a", .handleEnd b!"x" b!"a" true,
      .handleStart b!"x" b!"b"] → Rest tr okTasks [(b!"b", ⟨b!"x", []⟩)] ∧ Succeeded tr b!"a" ∧
      .handleStart b!"x" b!"b" ∈ tr := by
    rintro tr rfl
    have hd : ∀ t, Succeeded [.started b!"x", .handleStart b!"x" b!"a", .handleEnd b!"x" b!"a" true,
        .handleStart b!"x" b!"b"] t ↔ t = b!"a" := by
      intro t
      simp [Succeeded]
    refine ⟨⟨by decide, ?_, ?_, ?_⟩, (hd _).2 rfl, by simp⟩
    · intro t ht
      rw [(hd t).1 ht]
      decide
    · intro t ht
      simp only [GoMap.keys, List.map_cons, List.map_nil, List.mem_singleton] at ht
      subst ht
      decide
    · intro t task ht hn
      have := GoMap.mem_of_get? ht
      simp only [okTasks, List.mem_cons, Prod.mk.injEq, List.not_mem_nil, or_false] at this
      rcases this with ⟨rfl, rfl⟩ | ⟨rfl, rfl⟩
      · exact absurd ((hd _).2 rfl) hn
      · exact ⟨_, rfl, rfl, fun m => by simp [hd]⟩
  exact ⟨_, r14, key _ rfl⟩

end Verif.Runner
