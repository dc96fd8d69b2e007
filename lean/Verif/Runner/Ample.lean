import Verif.Runner.Props
import Verif.Runner.SameBook
import Verif.Sched.Ample

/-!
# C165: a limit that is not reached has no effect on a run
-/

namespace Verif.Runner
open Verif Dag Sched

variable {targets targets' : GoMap Str Int} {tasks : GoMap Str Task} {st st' : St}

/-- The scheduler goroutine with other limits. -/
def SchedPC.limits (targets' : GoMap Str Int) : SchedPC → SchedPC
  | .start => .start
  | .sending s todo => .sending { s with targetCap := targets' } todo
  | .stopped => .stopped

/-- What is known of the scheduler. -/
inductive AOk (targets : GoMap Str Int) (tasks : GoMap Str Task) : SchedPC → Prop
  | start : AOk targets tasks .start
  | stopped : AOk targets tasks .stopped
  | sending {s : Scheduler} (todo : List (Str × Str)) {rep rel : List Str} {o : List (Str × Str)}
      (hi : SInv tasks s rep rel o) (hc : s.targetCap = targets) (hl : LenLe s o) : AOk targets tasks (.sending s todo)

theorem ample_sim (wf' : targets'.WF) (wft : tasks.WF) (ha : AmpleLimits targets targets' tasks)
    (hv' : ValidTargets targets' tasks) (hlim' : ∀ q n, targets'.get? q = some n → 1 ≤ n)
    (hr : Reach targets' tasks { st with sched := st.sched.limits targets' }) (hs : Step targets tasks st st')
    (hp : AOk targets tasks st.sched) :
    Step targets' tasks { st with sched := st.sched.limits targets' } { st' with sched := st'.sched.limits targets' } ∧
      AOk targets tasks st'.sched := by
  obtain ⟨-, c1, c2, c3⟩ := C24_channels_never_overflow wf' wft hv' hlim' hr
  simp only at c1 c2 c3
  cases hs with
  | schedNewErr e h hn =>
    refine ⟨.schedNewErr _ e (by simp [h, SchedPC.limits]) ?_, .stopped⟩
    unfold new at hn ⊢
    cases e1 : newDependencyGraph (tasks.map (fun p => (p.1, p.2.after))) with
    | none => rw [e1] at hn; simp at hn
    | some x =>
      cases x with
      | error e' => rw [e1] at hn; simpa using hn
      | ok g => rw [e1] at hn; simp at hn
  | schedNew s r r' h hn hperm =>
    obtain ⟨a, b⟩ := new_ample wft ha hn
    obtain ⟨_, -, -, -, hi, -, -, hc⟩ := new_pres wft hn
    exact ⟨.schedNew _ _ r r' (by simp [h, SchedPC.limits]) a hperm, .sending _ hi hc b⟩
  | schedSend s x todo h hc =>
    rw [h] at hp c1
    cases hp with
    | sending _ hi hcap hl =>
      exact ⟨.schedSend _ { s with targetCap := targets' } x todo (by simp [h, SchedPC.limits])
        (c1 { s with targetCap := targets' } x todo rfl), .sending _ hi hcap hl⟩
  | schedNext s s1 c rest r r' h hd hn hperm =>
    rw [h] at hp
    cases hp with
    | sending _ hi hcap hl =>
      obtain ⟨a, b, d, -⟩ := next_ample wft ha hi hcap hl c
      rw [hn] at a b d
      exact ⟨.schedNext _ { s with targetCap := targets' } _ c rest r r' (by simp [h, SchedPC.limits]) hd a hperm,
        .sending _ (next_pres hi c hn).1 b (d r rfl)⟩
  | schedRefused s s1 c rest h hd hn =>
    rw [h] at hp
    cases hp with
    | sending _ hi hcap hl =>
      obtain ⟨a, -, -, -⟩ := next_ample wft ha hi hcap hl c
      rw [hn] at a
      exact ⟨.schedRefused _ { s with targetCap := targets' } _ c rest (by simp [h, SchedPC.limits]) hd a, .stopped⟩
  | schedClosed s h hd hc =>
    exact ⟨.schedClosed _ { s with targetCap := targets' } (by simp [h, SchedPC.limits]) hd hc, .stopped⟩
  | targetStart q rest h => exact ⟨.targetStart _ q rest h, hp⟩
  | targetStartFail q rest h => exact ⟨.targetStartFail _ q rest h, hp⟩
  | returnStartErr q h => exact ⟨.returnStartErr _ q h, hp⟩
  | targetsStarted h => exact ⟨.targetsStarted _ h, hp⟩
  | routerRecv q t rest h hr' => exact ⟨.routerRecv _ q t rest h hr', hp⟩
  | routerSend q t h ht' => exact ⟨.routerSend _ q t h ht', hp⟩
  | routerClosed h hr' hs => exact ⟨.routerClosed _ h hr' (by simp [hs, SchedPC.limits]), hp⟩
  | routerDone h ht' => exact ⟨.routerDone _ h ht', hp⟩
  | handleEnd q t ok h => exact ⟨.handleEnd _ q t ok h, hp⟩
  | report q t ok h hc => exact ⟨.report _ q t ok h (c2 q t ok h), hp⟩
  | targetClosed q h hr' => exact ⟨.targetClosed _ q h hr', hp⟩
  | targetStop q h => exact ⟨.targetStop _ q h, hp⟩
  | mainOk t rest h he => exact ⟨.mainOk _ t rest h he, hp⟩
  | mainSend t h hc => exact ⟨.mainSend _ t h (c3 t h), hp⟩
  | mainErr t rest h he => exact ⟨.mainErr _ t rest h he, hp⟩
  | mainEnd1 h he hr' => exact ⟨.mainEnd1 _ h he hr', hp⟩
  | mainDrain e t ok rest h he => exact ⟨.mainDrain _ e t ok rest h he, hp⟩
  | mainReturn e h he hr' => exact ⟨.mainReturn _ e h he hr', hp⟩

theorem ample_reach (wf' : targets'.WF) (wft : tasks.WF) (ha : AmpleLimits targets targets' tasks)
    (hv' : ValidTargets targets' tasks) (hlim' : ∀ q n, targets'.get? q = some n → 1 ≤ n) (h : Reach targets tasks st) :
    Reach targets' tasks { st with sched := st.sched.limits targets' } ∧ AOk targets tasks st.sched := by
  induction h with
  | init order ho => exact ⟨.init order (by rw [← ha.keys]; exact ho), .start⟩
  | step _ hs ih =>
    obtain ⟨a, b⟩ := ample_sim wf' wft ha hv' hlim' ih.1 hs ih.2
    exact ⟨ih.1.step a, b⟩

theorem ample_valid (ha : AmpleLimits targets targets' tasks) (hv : ValidTargets targets tasks)
    (hlim' : ∀ q n, targets'.get? q = some n → 1 ≤ n) : ValidTargets targets' tasks := by
  intro t task h
  obtain ⟨n, h1, -⟩ := hv t task h
  have hk : task.target ∈ targets'.keys := by rw [← ha.keys]; exact GoMap.mem_keys_of_get? h1
  obtain ⟨n', h2⟩ := GoMap.exists_get?_of_mem_keys hk
  exact ⟨n', h2, hlim' _ _ h2⟩

/-- **C165, runs.** In a runbook as the parser returns them the limits of some targets are changed, but before and after no
such limit is lower than the number of tasks the target has.  Then a run of the one may do and return something if and only if
a run of the other may. -/
theorem C165_runs (wf : targets.WF) (wft : tasks.WF) (hv : ValidTargets targets tasks)
    (hlim : ∀ q n, targets.get? q = some n → 1 ≤ n) (hlim' : ∀ q n, targets'.get? q = some n → 1 ≤ n)
    (ha : AmpleLimits targets targets' tasks) (tr : List Event) (ret : Option (Option RunErr)) :
    Observed targets tasks tr ret ↔ Observed targets' tasks tr ret := by
  have wf' : targets'.WF := by
    unfold GoMap.WF at wf ⊢; rw [← ha.keys]; exact wf
  have hv' := ample_valid ha hv hlim'
  constructor
  · rintro ⟨st, h, h1, h2⟩
    exact ⟨_, (ample_reach wf' wft ha hv' hlim' h).1, h1, h2⟩
  · rintro ⟨st, h, h1, h2⟩
    exact ⟨_, (ample_reach wf wft ha.symm hv hlim h).1, h1, h2⟩

/-- C165 is about something: a target with two tasks, whose limit is raised from two to five, and a run. -/
example : ValidTargets [(b!"x", 2)] [(b!"a", ⟨b!"x", []⟩), (b!"b", ⟨b!"x", [b!"a"]⟩)] ∧
    AmpleLimits [(b!"x", 2)] [(b!"x", 5)] [(b!"a", ⟨b!"x", []⟩), (b!"b", ⟨b!"x", [b!"a"]⟩)] ∧
    Observed [(b!"x", 2)] [(b!"a", ⟨b!"x", []⟩), (b!"b", ⟨b!"x", [b!"a"]⟩)] [.started b!"x", .handleStart b!"x" b!"a"] none := by
  refine ⟨?_, ⟨rfl, fun q => ?_⟩, ?_⟩
  · intro t task h
    have := GoMap.mem_of_get? h
    simp only [List.mem_cons, Prod.mk.injEq, List.not_mem_nil, or_false] at this
    rcases this with ⟨-, rfl⟩ | ⟨-, rfl⟩ <;> exact ⟨2, by decide +kernel, by decide⟩
  · by_cases h : q = b!"x"
    · subst h; right; decide +kernel
    · left
      simp [getInt, GoMap.get?_cons, Ne.symm h]
  · refine ⟨_, ((((((Reach.init [b!"x"] (.refl _)).step (.targetStart _ _ _ rfl)).step (.targetsStarted _ rfl)).step
      (.schedNew _ _ _ _ rfl rfl (.refl _))).step (.schedSend _ _ _ _ rfl (by decide +kernel))).step
      (.routerRecv _ _ _ _ rfl rfl)).step (.routerSend _ _ _ rfl rfl), rfl, by simp⟩

end Verif.Runner
