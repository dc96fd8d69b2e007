import Verif.Runner.OutputProps

/-!
# C144: what `Run` returns does not depend on the schedule
-/

namespace Verif.Runner
open Verif Sched

variable {targets : GoMap Str Int} {tasks : GoMap Str Task} {st st' : St}

/-- Nothing failed to start, and every task that has ended has had the outcome it is to have: `true` is success. -/
structure Keeps (outcome : Str → Bool) (st : St) : Prop where
  started : ∀ q, .startFailed q ∉ st.trace
  outcomes : ∀ q t ok, .handleEnd q t ok ∈ st.trace → ok = outcome t

/-- The task is to fail, and nothing it waits for is. -/
structure FailsFirst (tasks : GoMap Str Task) (outcome : Str → Bool) (t : Str) : Prop where
  task : t ∈ tasks.keys
  fails : outcome t = false
  below : ∀ m ∈ tasks.keys, Below tasks t m → outcome m = true

theorem Keeps.failsFirst (wf : targets.WF) (wft : tasks.WF) (hn : b!"" ∉ tasks.keys) {outcome : Str → Bool}
    (h : Reach targets tasks st) (hk : Keeps outcome st) {t : Str} (hret : st.main = .returned (some (.task t))) :
    FailsFirst tasks outcome t := by
  obtain ⟨q, hq⟩ := (C23_run_reports_failure wf wft h).2.1 t hret
  obtain ⟨hc, hf⟩ := h.inv wf wft
  have hs := hf.endTr q t false hq
  obtain ⟨task, h1, -⟩ := (C19_run_at_most_once_one_per_target wf wft h).2.1 q t hs
  refine ⟨GoMap.mem_keys_of_get? h1, (hk.outcomes q t false hq).symm, ?_⟩
  intro m hm hb
  obtain ⟨q', hq'⟩ := below_ended wf wft hn h hb hs hm
  exact (hk.outcomes q' m true hq').symm

/-- **C144 (partial).** Let it be fixed which tasks succeed and which fail, and let all targets start.  If no two of the
tasks that are to fail can both be reached (there is at most one that waits for no other that is to fail), then two
runs that return, return the same.
Missing: two tasks that fail independently (`C144_refuted`), circular and dangling dependencies, and a task named "". -/
theorem C144_same_result_partial (wf : targets.WF) (wft : tasks.WF) (hn : b!"" ∉ tasks.keys) (hv : ValidDeps tasks)
    (outcome : Str → Bool) (hone : ∀ f g, FailsFirst tasks outcome f → FailsFirst tasks outcome g → f = g)
    (h : Reach targets tasks st) (h' : Reach targets tasks st') (hk : Keeps outcome st) (hk' : Keeps outcome st')
    {e e' : Option RunErr} (hret : st.main = .returned e) (hret' : st'.main = .returned e') : e = e' := by
  have key : ∀ {st st' : St} {e' : Option RunErr}, Reach targets tasks st → Reach targets tasks st' → Keeps outcome st →
      Keeps outcome st' → st.main = .returned none → st'.main = .returned e' → e' = none := by
    intro st st' e' h h' hk hk' hret hret'
    cases e' with
    | none => rfl
    | some x =>
      cases x with
      | start q => exact absurd ((C23_run_reports_failure wf wft h').1 q hret') (hk'.started q)
      | task t =>
        have hff := hk'.failsFirst wf wft hn h' hret'
        obtain ⟨-, q, hq⟩ := C20_nil_means_all_succeeded_partial wf wft hv h hret t hff.task
        have := hk.outcomes q t true hq
        rw [hff.fails] at this
        cases this
  cases e with
  | none => exact (key h h' hk hk' hret hret').symm
  | some x =>
    cases e' with
    | none => exact key h' h hk' hk hret' hret
    | some y =>
      cases x with
      | start q => exact absurd ((C23_run_reports_failure wf wft h).1 q hret) (hk.started q)
      | task t =>
        cases y with
        | start q => exact absurd ((C23_run_reports_failure wf wft h').1 q hret') (hk'.started q)
        | task t' =>
          rw [hone t t' (hk.failsFirst wf wft hn h hret) (hk'.failsFirst wf wft hn h' hret')]

/-- **C144, which.** What is returned: nil if no task is to fail, otherwise the error of one that waits for no other
that is to fail. -/
theorem C144_which (wf : targets.WF) (wft : tasks.WF) (hn : b!"" ∉ tasks.keys) (hv : ValidDeps tasks)
    (outcome : Str → Bool) (h : Reach targets tasks st) (hk : Keeps outcome st) {e : Option RunErr}
    (hret : st.main = .returned e) :
    (e = none ∧ ∀ t ∈ tasks.keys, outcome t = true) ∨ ∃ t, e = some (.task t) ∧ FailsFirst tasks outcome t := by
  cases e with
  | none =>
    refine .inl ⟨rfl, fun t ht => ?_⟩
    obtain ⟨-, q, hq⟩ := C20_nil_means_all_succeeded_partial wf wft hv h hret t ht
    exact (hk.outcomes q t true hq).symm
  | some x =>
    cases x with
    | start q => exact absurd ((C23_run_reports_failure wf wft h).1 q hret) (hk.started q)
    | task t => exact .inr ⟨t, rfl, hk.failsFirst wf wft hn h hret⟩

/-! ## Refutation -/

theorem two_results : (∃ st, Reach mixTargets mixTasks st ∧ Keeps (fun _ => false) st ∧
      st.main = .returned (some (.task b!"a"))) ∧
    ∃ st, Reach mixTargets mixTasks st ∧ Keeps (fun _ => false) st ∧ st.main = .returned (some (.task b!"b")) := by
  have r0 : Reach mixTargets mixTasks _ := Reach.init [b!"x", b!"y"] (List.Perm.refl _)
  have r1 := Reach.step r0 (Step.targetStart _ b!"x" [b!"y"] rfl)
  have r2 := Reach.step r1 (Step.targetStart _ b!"y" [] rfl)
  have r3 := Reach.step r2 (Step.targetsStarted _ rfl)
  have r4 := Reach.step r3 (Step.schedNew _ _ _ _ rfl rfl (List.Perm.refl _))
  have r5 := Reach.step r4 (Step.schedSend _ _ (b!"x", b!"a") [(b!"y", b!"b")] rfl (by decide))
  have r6 := Reach.step r5 (Step.schedSend _ _ (b!"y", b!"b") [] rfl (by decide))
  have r7 := Reach.step r6 (Step.routerRecv _ b!"x" b!"a" [(b!"y", b!"b")] rfl rfl)
  have r8 := Reach.step r7 (Step.routerSend _ b!"x" b!"a" rfl rfl)
  have r9 := Reach.step r8 (Step.routerRecv _ b!"y" b!"b" [] rfl rfl)
  have r10 := Reach.step r9 (Step.routerSend _ b!"y" b!"b" rfl rfl)
  have r11 := Reach.step r10 (Step.handleEnd _ b!"x" b!"a" false rfl)
  have r12 := Reach.step r11 (Step.handleEnd _ b!"y" b!"b" false rfl)
  constructor
  · have s1 := Reach.step r12 (Step.report _ b!"x" b!"a" false rfl (by decide))
    have s2 := Reach.step s1 (Step.report _ b!"y" b!"b" false rfl (by decide))
    have s3 := Reach.step s2 (Step.mainErr _ b!"a" _ rfl rfl)
    have s4 := Reach.step s3 (Step.mainDrain _ _ b!"b" false _ rfl rfl)
    have s5 := Reach.step s4 (Step.targetStop _ b!"x" rfl)
    have s6 := Reach.step s5 (Step.targetStop _ b!"y" rfl)
    have s7 := Reach.step s6 (Step.schedClosed _ _ rfl rfl rfl)
    have s8 := Reach.step s7 (Step.routerClosed _ rfl rfl rfl)
    have s9 := Reach.step s8 (Step.routerDone _ rfl (by
      intro q
      by_cases e : q = b!"y"
      · subst e; exact Or.inr rfl
      · by_cases e' : q = b!"x"
        · subst e'; exact Or.inr rfl
        · simp [Function.update_of_ne e, Function.update_of_ne e', init]))
    have s10 := Reach.step s9 (Step.mainReturn _ _ rfl rfl rfl)
    exact ⟨_, s10, ⟨by simp [init], by simp [init]⟩, rfl⟩
  · have s1 := Reach.step r12 (Step.report _ b!"y" b!"b" false rfl (by decide))
    have s2 := Reach.step s1 (Step.report _ b!"x" b!"a" false rfl (by decide))
    have s3 := Reach.step s2 (Step.mainErr _ b!"b" _ rfl rfl)
    have s4 := Reach.step s3 (Step.mainDrain _ _ b!"a" false _ rfl rfl)
    have s5 := Reach.step s4 (Step.targetStop _ b!"x" rfl)
    have s6 := Reach.step s5 (Step.targetStop _ b!"y" rfl)
    have s7 := Reach.step s6 (Step.schedClosed _ _ rfl rfl rfl)
    have s8 := Reach.step s7 (Step.routerClosed _ rfl rfl rfl)
    have s9 := Reach.step s8 (Step.routerDone _ rfl (by
      intro q
      by_cases e : q = b!"y"
      · subst e; exact Or.inr rfl
      · by_cases e' : q = b!"x"
        · subst e'; exact Or.inr rfl
        · simp [Function.update_of_ne e, Function.update_of_ne e', init]))
    have s10 := Reach.step s9 (Step.mainReturn _ _ rfl rfl rfl)
    exact ⟨_, s10, ⟨by simp [init], by simp [init]⟩, rfl⟩

/-- **C144 refuted.** Two tasks of different targets that both fail: what `Run` returns is the error of the one or of the
other. -/
theorem C144_refuted : ∃ (outcome : Str → Bool) (st st' : St), Reach mixTargets mixTasks st ∧ Reach mixTargets mixTasks st' ∧
    Keeps outcome st ∧ Keeps outcome st' ∧ st.main = .returned (some (.task b!"a")) ∧
    st'.main = .returned (some (.task b!"b")) := by
  obtain ⟨⟨st, h1, h2, h3⟩, st', h4, h5, h6⟩ := two_results
  exact ⟨_, st, st', h1, h4, h2, h5, h3, h6⟩

/-- The hypothesis of `C144_same_result_partial` on failures is met if both "a" and "b" fail and "b" waits for "a"
(`rowTasks`), and not if neither waits for the other. -/
example : (∀ f g, FailsFirst (rowTasks.take 2) (fun _ => false) f → FailsFirst (rowTasks.take 2) (fun _ => false) g → f = g) ∧
    FailsFirst mixTasks (fun _ => false) b!"a" ∧ FailsFirst mixTasks (fun _ => false) b!"b" := by
  have hno : ∀ t m, ¬ Below mixTasks t m := by
    intro t m hb
    have : ∃ m, After mixTasks t m := by
      cases Relation.TransGen.head'_iff.1 hb with
      | intro c h => exact ⟨c, h.1⟩
    obtain ⟨m, task, h1, h2⟩ := this
    have := GoMap.mem_of_get? h1
    simp only [mixTasks, List.mem_cons, Prod.mk.injEq, List.not_mem_nil, or_false] at this
    rcases this with ⟨-, rfl⟩ | ⟨-, rfl⟩ <;> cases h2
  refine ⟨?_, ⟨by decide, rfl, fun m _ hb => absurd hb (hno _ _)⟩, ⟨by decide, rfl, fun m _ hb => absurd hb (hno _ _)⟩⟩
  have hb : Below (rowTasks.take 2) b!"b" b!"a" := .single ⟨⟨b!"y", [b!"a"]⟩, rfl, by decide⟩
  have hk : ∀ t, FailsFirst (rowTasks.take 2) (fun _ => false) t → t = b!"a" := by
    intro t h
    have := h.task
    simp only [rowTasks, GoMap.keys, List.take, List.map_cons, List.map_nil, List.mem_cons, List.not_mem_nil,
      or_false] at this
    rcases this with rfl | rfl
    · rfl
    · exact absurd (h.below b!"a" (by decide) hb) (by simp)
  intro f g h1 h2
  rw [hk f h1, hk g h2]

end Verif.Runner
