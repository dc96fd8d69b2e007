import Verif.Runner.Props

/-!
# Concrete runs of the runner: refutations of C20, C21, C22, C26 and non-vacuity of C18-C26
-/

namespace Verif.Runner
open Verif Dag Sched

/-! ## C20 refuted: a self-dependency -/

def cycTargets : GoMap Str Int := [(b!"x", 1)]
def cycTasks : GoMap Str Task := [(b!"a", ⟨b!"x", [b!"a"]⟩)]

/-- **C20 refuted.** With a circular dependency `Run` can return nil without having handled any
task. -/
theorem C20_refuted : ∃ st, Reach cycTargets cycTasks st ∧ st.main = .returned none ∧
    st.trace = [.started b!"x", .stopped b!"x"] := by
  have r0 : Reach cycTargets cycTasks _ := Reach.init [b!"x"] (List.Perm.refl _)
  have r1 := Reach.step r0 (Step.targetStart _ b!"x" [] rfl)
  have r2 := Reach.step r1 (Step.targetsStarted _ rfl)
  have r3 := Reach.step r2 (Step.schedNewErr _ _ rfl rfl)
  have r4 := Reach.step r3 (Step.routerClosed _ rfl rfl rfl)
  have r5 := Reach.step r4 (Step.targetClosed _ b!"x" rfl (Or.inl rfl))
  have r6 := Reach.step r5 (Step.targetStop _ b!"x" rfl)
  have r7 := Reach.step r6 (Step.routerDone _ rfl (by
    intro q
    by_cases e : q = b!"x"
    · subst e; exact Or.inr rfl
    · simp [Function.update_of_ne e, init]))
  have r8 := Reach.step r7 (Step.mainEnd1 _ rfl rfl rfl)
  have r9 := Reach.step r8 (Step.mainReturn _ none rfl rfl rfl)
  exact ⟨_, r9, rfl, rfl⟩

/-! ## C21 refuted: no tasks -/

/-- **C21 refuted.** Without tasks, and with no failure at all, `Run` deadlocks. -/
theorem C21_refuted : ∃ st, Reach cycTargets [] st ∧ Terminal cycTargets [] st ∧
    st.main = .loop1 ∧ st.trace = [.started b!"x"] := by
  have r0 : Reach cycTargets [] _ := Reach.init [b!"x"] (List.Perm.refl _)
  have r1 := Reach.step r0 (Step.targetStart _ b!"x" [] rfl)
  have r2 := Reach.step r1 (Step.targetsStarted _ rfl)
  obtain ⟨s, hn⟩ : ∃ s, new cycTargets [] = some (.ok (s, [])) := ⟨_, rfl⟩
  have r3 := Reach.step r2 (Step.schedNew _ s [] [] rfl hn (List.Perm.refl _))
  refine ⟨_, r3, ?_, rfl, rfl⟩
  intro st' hs
  have htgt : ∀ q, Function.update (fun _ : Str => TgtPC.notStarted) b!"x" TgtPC.idle q = .notStarted ∨
      Function.update (fun _ : Str => TgtPC.notStarted) b!"x" TgtPC.idle q = .idle := by
    intro q; by_cases e : q = b!"x"
    · subst e; simp
    · simp [Function.update_of_ne e]
  cases hs <;> simp_all [init, flat] <;> grind

/-! ## C22 refuted: a failing task on a target with limit 2 -/

def twoTargets : GoMap Str Int := [(b!"x", 2)]
def twoTasks : GoMap Str Task := [(b!"a", ⟨b!"x", []⟩), (b!"b", ⟨b!"x", []⟩)]

/-- **C22 refuted.** Two independent tasks on a target with limit 2: if the first fails, `Run`
can deadlock. -/
theorem C22_refuted : ∃ st, Reach twoTargets twoTasks st ∧ Terminal twoTargets twoTasks st ∧
    st.main = .loop2 (some b!"a") ∧
    st.trace = [.started b!"x", .handleStart b!"x" b!"a", .handleEnd b!"x" b!"a" false,
      .stopped b!"x"] := by
  have r0 : Reach twoTargets twoTasks _ := Reach.init [b!"x"] (List.Perm.refl _)
  have r1 := Reach.step r0 (Step.targetStart _ b!"x" [] rfl)
  have r2 := Reach.step r1 (Step.targetsStarted _ rfl)
  have r3 := Reach.step r2 (Step.schedNew _ _ _ _ rfl rfl (List.Perm.refl _))
  have r4 := Reach.step r3 (Step.schedSend _ _ (b!"x", b!"a") [(b!"x", b!"b")] rfl (by decide))
  have r5 := Reach.step r4 (Step.schedSend _ _ (b!"x", b!"b") [] rfl (by decide))
  have r6 := Reach.step r5 (Step.routerRecv _ b!"x" b!"a" [(b!"x", b!"b")] rfl rfl)
  have r7 := Reach.step r6 (Step.routerSend _ b!"x" b!"a" rfl rfl)
  have r8 := Reach.step r7 (Step.handleEnd _ b!"x" b!"a" false rfl)
  have r9 := Reach.step r8 (Step.report _ b!"x" b!"a" false rfl (by decide))
  have r10 := Reach.step r9 (Step.targetStop _ b!"x" rfl)
  have r11 := Reach.step r10 (Step.routerRecv _ b!"x" b!"b" [] rfl rfl)
  have r12 := Reach.step r11 (Step.mainErr _ b!"a" [] rfl rfl)
  have r13 := Reach.step r12 (Step.schedClosed _ _ rfl rfl rfl)
  refine ⟨_, r13, ?_, rfl, rfl⟩
  intro st' hs
  cases hs <;> simp_all [init, Function.update_apply] <;> grind

/-! ## C26 refuted -/

def failTargets : GoMap Str Int := [(b!"x", 1), (b!"y", 1)]
def failTasks : GoMap Str Task := [(b!"a", ⟨b!"x", []⟩), (b!"b", ⟨b!"y", []⟩)]

/-- **C26 refuted.** After target "y" failed to start and `Run` returned the error, a task of the
already started target "x" is executed. -/
theorem C26_refuted : ∃ st, Reach failTargets failTasks st ∧
    st.main = .returned (some (.start b!"y")) ∧
    st.trace = [.started b!"x", .startFailed b!"y", .handleStart b!"x" b!"a"] := by
  have r0 : Reach failTargets failTasks _ := Reach.init [b!"x", b!"y"] (List.Perm.refl _)
  have r1 := Reach.step r0 (Step.targetStart _ b!"x" [b!"y"] rfl)
  have r2 := Reach.step r1 (Step.targetStartFail _ b!"y" [] rfl)
  have r3 := Reach.step r2 (Step.returnStartErr _ b!"y" rfl)
  have r4 := Reach.step r3 (Step.schedNew _ _ _ _ rfl rfl (List.Perm.refl _))
  have r5 := Reach.step r4 (Step.schedSend _ _ (b!"x", b!"a") [(b!"y", b!"b")] rfl (by decide))
  have r6 := Reach.step r5 (Step.routerRecv _ b!"x" b!"a" [] rfl rfl)
  have r7 := Reach.step r6 (Step.routerSend _ b!"x" b!"a" rfl rfl)
  exact ⟨_, r7, rfl, rfl⟩

/-! ## C18 and C23 refuted: a dependency on a task named "" -/

def unnamedTargets : GoMap Str Int := [(b!"x", 1), (b!"y", 1)]
def unnamedTasks : GoMap Str Task := [(b!"", ⟨b!"x", []⟩), (b!"b", ⟨b!"y", [b!""]⟩)]

/-- **C18 refuted**, and the last clause of C23: the task "b", which is after the task "", is begun
although "" has failed. The dependencies are valid and all targets start. -/
theorem C18_refuted : ∃ st, Reach unnamedTargets unnamedTasks st ∧
    ValidTargets unnamedTargets unnamedTasks ∧ ValidDeps unnamedTasks ∧ After unnamedTasks b!"b" b!"" ∧
    st.trace = [.started b!"x", .started b!"y", .handleStart b!"x" b!"", .handleEnd b!"x" b!"" false,
      .handleStart b!"y" b!"b"] := by
  have r0 : Reach unnamedTargets unnamedTasks _ := Reach.init [b!"x", b!"y"] (List.Perm.refl _)
  have r1 := Reach.step r0 (Step.targetStart _ b!"x" [b!"y"] rfl)
  have r2 := Reach.step r1 (Step.targetStart _ b!"y" [] rfl)
  have r3 := Reach.step r2 (Step.targetsStarted _ rfl)
  have r4 := Reach.step r3 (Step.schedNew _ _ _ _ rfl rfl (List.Perm.refl _))
  have r5 := Reach.step r4 (Step.schedSend _ _ (b!"x", b!"") [(b!"y", b!"b")] rfl (by decide))
  have r6 := Reach.step r5 (Step.schedSend _ _ (b!"y", b!"b") [] rfl (by decide))
  have r7 := Reach.step r6 (Step.routerRecv _ b!"x" b!"" [(b!"y", b!"b")] rfl rfl)
  have r8 := Reach.step r7 (Step.routerSend _ b!"x" b!"" rfl rfl)
  have r9 := Reach.step r8 (Step.handleEnd _ b!"x" b!"" false rfl)
  have r10 := Reach.step r9 (Step.routerRecv _ b!"y" b!"b" [] rfl rfl)
  have r11 := Reach.step r10 (Step.routerSend _ b!"y" b!"b" rfl rfl)
  have hafter : ∀ t m, After unnamedTasks t m → t = b!"b" ∧ m = b!"" := by
    rintro t m ⟨task, h1, h2⟩
    have := GoMap.mem_of_get? h1
    simp only [unnamedTasks, List.mem_cons, Prod.mk.injEq, List.not_mem_nil, or_false] at this
    rcases this with ⟨rfl, rfl⟩ | ⟨rfl, rfl⟩
    · simp at h2
    · simpa using h2
  refine ⟨_, r11, ?_, ⟨?_, ?_⟩, ⟨_, rfl, by decide⟩, rfl⟩
  · intro t task h
    have := GoMap.mem_of_get? h
    simp only [unnamedTasks, List.mem_cons, Prod.mk.injEq, List.not_mem_nil, or_false] at this
    rcases this with ⟨rfl, rfl⟩ | ⟨rfl, rfl⟩ <;> exact ⟨1, by decide, by decide⟩
  · intro t m h; rw [(hafter t m h).2]; decide
  · intro t h
    have h1 : ∀ a b, Relation.TransGen (After unnamedTasks) a b → a = b!"b" ∧ b = b!"" := by
      intro a b hab
      induction hab with
      | single h => exact hafter _ _ h
      | tail h h' ih => exact ⟨ih.1, (hafter _ _ h').2⟩
    obtain ⟨e1, e2⟩ := h1 t t h
    rw [e1] at e2; exact absurd e2 (by decide)

/-! ## Non-vacuity: a complete successful run, and one with a failure -/

def okTargets : GoMap Str Int := [(b!"x", 2)]
def okTasks : GoMap Str Task := [(b!"a", ⟨b!"x", []⟩), (b!"b", ⟨b!"x", [b!"a"]⟩)]

theorem okTasks_valid : ValidTargets okTargets okTasks := by
  intro t task h
  have := GoMap.mem_of_get? h
  simp only [okTasks, List.mem_cons, Prod.mk.injEq, List.not_mem_nil, or_false] at this
  rcases this with ⟨rfl, rfl⟩ | ⟨rfl, rfl⟩ <;> exact ⟨2, by decide, by decide⟩

theorem okTasks_deps : ValidDeps okTasks := by
  have hafter : ∀ t m, After okTasks t m → t = b!"b" ∧ m = b!"a" := by
    rintro t m ⟨task, h1, h2⟩
    have := GoMap.mem_of_get? h1
    simp only [okTasks, List.mem_cons, Prod.mk.injEq, List.not_mem_nil, or_false] at this
    rcases this with ⟨rfl, rfl⟩ | ⟨rfl, rfl⟩
    · simp at h2
    · simpa using h2
  refine ⟨?_, ?_⟩
  · intro t m h; rw [(hafter t m h).2]; decide
  · intro t h
    have h1 : ∀ a b, Relation.TransGen (After okTasks) a b → a = b!"b" ∧ b = b!"a" := by
      intro a b hab
      induction hab with
      | single h => exact hafter _ _ h
      | tail h h' ih => exact ⟨ih.1, (hafter _ _ h').2⟩
    obtain ⟨e1, e2⟩ := h1 t t h
    rw [e1] at e2; exact absurd e2 (by decide)

/-- A run of two tasks, one after the other, on a target with limit 2, in which `Run` returns nil:
the hypotheses of C18-C21, C23-C25 hold of it. -/
theorem ok_run : ∃ st, Reach okTargets okTasks st ∧ st.main = .returned none ∧
    st.trace = [.started b!"x", .handleStart b!"x" b!"a", .handleEnd b!"x" b!"a" true,
      .handleStart b!"x" b!"b", .handleEnd b!"x" b!"b" true, .stopped b!"x"] := by
  have r0 : Reach okTargets okTasks _ := Reach.init [b!"x"] (List.Perm.refl _)
  have r1 := Reach.step r0 (Step.targetStart _ b!"x" [] rfl)
  have r2 := Reach.step r1 (Step.targetsStarted _ rfl)
  have r3 := Reach.step r2 (Step.schedNew _ _ _ _ rfl rfl (List.Perm.refl _))
  have r4 := Reach.step r3 (Step.schedSend _ _ (b!"x", b!"a") [] rfl (by decide))
  have r5 := Reach.step r4 (Step.routerRecv _ b!"x" b!"a" [] rfl rfl)
  have r6 := Reach.step r5 (Step.routerSend _ b!"x" b!"a" rfl rfl)
  have r7 := Reach.step r6 (Step.handleEnd _ b!"x" b!"a" true rfl)
  have r8 := Reach.step r7 (Step.report _ b!"x" b!"a" true rfl (by decide))
  have r9 := Reach.step r8 (Step.mainOk _ b!"a" [] rfl rfl)
  have r10 := Reach.step r9 (Step.mainSend _ b!"a" rfl (by decide))
  have r11 := Reach.step r10 (Step.schedNext _ _ _ b!"a" [] _ _ rfl rfl rfl (List.Perm.refl _))
  have r12 := Reach.step r11 (Step.schedSend _ _ (b!"x", b!"b") [] rfl (by decide))
  have r13 := Reach.step r12 (Step.routerRecv _ b!"x" b!"b" [] rfl rfl)
  have r14 := Reach.step r13 (Step.routerSend _ b!"x" b!"b" rfl rfl)
  have r15 := Reach.step r14 (Step.handleEnd _ b!"x" b!"b" true rfl)
  have r16 := Reach.step r15 (Step.report _ b!"x" b!"b" true rfl (by decide))
  have r17 := Reach.step r16 (Step.mainOk _ b!"b" [] rfl rfl)
  have r18 := Reach.step r17 (Step.mainSend _ b!"b" rfl (by decide))
  have r19 := Reach.step r18 (Step.schedRefused _ _ _ b!"b" [] rfl rfl rfl)
  have r20 := Reach.step r19 (Step.routerClosed _ rfl rfl rfl)
  have r21 := Reach.step r20 (Step.targetClosed _ b!"x" rfl (Or.inl rfl))
  have r22 := Reach.step r21 (Step.targetStop _ b!"x" rfl)
  have r23 := Reach.step r22 (Step.routerDone _ rfl (by
    intro q
    by_cases e : q = b!"x"
    · subst e; exact Or.inr rfl
    · simp [Function.update_of_ne e, init]))
  have r24 := Reach.step r23 (Step.mainEnd1 _ rfl rfl rfl)
  have r25 := Reach.step r24 (Step.mainReturn _ none rfl rfl rfl)
  exact ⟨_, r25, rfl, rfl⟩

example : okTargets.WF ∧ okTasks.WF ∧ b!"" ∉ okTasks.keys ∧ okTasks ≠ [] ∧
    (∀ q n, okTargets.get? q = some n → 1 ≤ n) := by
  refine ⟨by decide, by decide, by decide, by decide, ?_⟩
  intro q n h
  have := GoMap.mem_of_get? h
  simp only [okTargets, List.mem_cons, Prod.mk.injEq, List.not_mem_nil, or_false] at this
  rw [this.2]; decide

/-- A run on a target with limit 1 in which the first task fails and `Run` returns its error: the
hypotheses of C22 and C23 hold of it. -/
theorem failed_run : ∃ st, Reach cycTargets okTasks st ∧
    st.main = .returned (some (.task b!"a")) ∧
    st.trace = [.started b!"x", .handleStart b!"x" b!"a", .handleEnd b!"x" b!"a" false,
      .stopped b!"x"] := by
  have r0 : Reach cycTargets okTasks _ := Reach.init [b!"x"] (List.Perm.refl _)
  have r1 := Reach.step r0 (Step.targetStart _ b!"x" [] rfl)
  have r2 := Reach.step r1 (Step.targetsStarted _ rfl)
  have r3 := Reach.step r2 (Step.schedNew _ _ _ _ rfl rfl (List.Perm.refl _))
  have r4 := Reach.step r3 (Step.schedSend _ _ (b!"x", b!"a") [] rfl (by decide))
  have r5 := Reach.step r4 (Step.routerRecv _ b!"x" b!"a" [] rfl rfl)
  have r6 := Reach.step r5 (Step.routerSend _ b!"x" b!"a" rfl rfl)
  have r7 := Reach.step r6 (Step.handleEnd _ b!"x" b!"a" false rfl)
  have r8 := Reach.step r7 (Step.report _ b!"x" b!"a" false rfl (by decide))
  have r9 := Reach.step r8 (Step.mainErr _ b!"a" [] rfl rfl)
  have r10 := Reach.step r9 (Step.schedClosed _ _ rfl rfl rfl)
  have r11 := Reach.step r10 (Step.routerClosed _ rfl rfl rfl)
  have r12 := Reach.step r11 (Step.targetStop _ b!"x" rfl)
  have r13 := Reach.step r12 (Step.routerDone _ rfl (by
    intro q
    by_cases e : q = b!"x"
    · subst e; exact Or.inr rfl
    · simp [Function.update_of_ne e, init]))
  have r14 := Reach.step r13 (Step.mainReturn _ (some b!"a") rfl rfl rfl)
  exact ⟨_, r14, rfl, rfl⟩

end Verif.Runner
