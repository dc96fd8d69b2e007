import Verif.Runner.Wait

/-!
# C20, C21, C22: exactly when they hold
-/

namespace Verif.Runner
open Verif Dag Sched

variable {targets : GoMap Str Int} {tasks : GoMap Str Task}

/-! ## The words -/

/-- The program can come from `st` to `st'`. -/
def Later (targets : GoMap Str Int) (tasks : GoMap Str Task) : St → St → Prop :=
  Relation.ReflTransGen (Step targets tasks)

/-- A task was handed out to a target on which `Handle` has failed, and has not been started. -/
def Stranded (st : St) : Prop :=
  ∃ q t t', .handleEnd q t false ∈ st.trace ∧ (q, t') ∈ st.out ∧ .handleStart q t' ∉ st.trace

/-! ## Lemmas -/

theorem Later.reach {st st' : St} (h : Reach targets tasks st) (hl : Later targets tasks st st') :
    Reach targets tasks st' := by
  induction hl with
  | refl => exact h
  | tail _ hs ih => exact .step ih hs

/-- What is on its way has not been started. -/
theorem not_started (wf : targets.WF) (wft : tasks.WF) {st : St} (h : Reach targets tasks st) {q q' t : Str}
    (hb : (q, t) ∈ st.before) : .handleStart q' t ∉ st.trace := by
  obtain ⟨hc, hf⟩ := h.inv wf wft
  intro hs
  have h1 : 1 ≤ (st.before.map Prod.snd).count t := List.one_le_count_iff.2 (List.mem_map.2 ⟨_, hb, rfl⟩)
  have h2 : 1 ≤ starts st.trace t := by
    unfold starts
    rw [Nat.one_le_iff_ne_zero, ← Nat.pos_iff_ne_zero, List.countP_pos_iff]
    exact ⟨_, hs, by simp [Event.isStart]⟩
  have := hf.nstarts t
  have := hf.le_one wft t
  omega

/-- A target on which `Handle` failed takes no further task. -/
theorem failed_target (wf : targets.WF) (wft : tasks.WF) {st : St} (h : Reach targets tasks st) :
    ∀ q t, .handleEnd q t false ∈ st.trace →
      st.tgt q = .reporting t false ∨ st.tgt q = .stopping ∨ st.tgt q = .stopped := by
  induction h with
  | init order h => simp [Runner.init]
  | @step st st' h hs ih =>
    have h2 := (h.inv wf wft).1.next_notStarted
    clear h
    cases hs <;> grind

theorem Stranded.step (wf : targets.WF) (wft : tasks.WF) {st st' : St} (h : Reach targets tasks st)
    (hst : Stranded st) (hs : Step targets tasks st st') : Stranded st' := by
  obtain ⟨q, t, t', h1, h2, h3⟩ := hst
  refine ⟨q, t, t', ?_, ?_, ?_⟩
  · rcases step_trace hs with e | ⟨_, e⟩
    · rw [e]; exact h1
    · rw [e]; exact List.mem_append_left _ h1
  · cases hs <;> simp_all
  · intro hin
    rcases step_trace hs with e | ⟨x, e⟩
    · exact h3 (e ▸ hin)
    · have hin' := hin
      rw [e] at hin'
      rcases List.mem_append.1 hin' with hin' | hin'
      · exact h3 hin'
      · rw [List.mem_singleton] at hin'
        subst hin'
        have hi := (step_handleStart hs e).1
        rcases failed_target wf wft h q t h1 with e | e | e <;> rw [hi] at e <;> cases e

theorem Stranded.not_returned (wf : targets.WF) (wft : tasks.WF) {st : St} (h : Reach targets tasks st)
    (hst : Stranded st) {e : Option RunErr} (hret : st.main = .returned e) : ∃ q, e = some (.start q) := by
  obtain ⟨q, t, t', h1, h2, h3⟩ := hst
  obtain ⟨hc, hf⟩ := h.inv wf wft
  rcases hc.ret e hret with h' | ⟨hr, -⟩
  · exact h'
  · obtain ⟨e1, e2⟩ := hc.closing (.inr hr)
    have hb := on_its_way wf wft h h2 h3
    simp [St.before, hr, e1, e2, SchedPC.todo, RouterPC.held] at hb

/-- Without bad luck the program comes to an end without a failure. -/
theorem comes_to_rest (wf : targets.WF) (wft : tasks.WF) (n : Nat) : ∀ st, Reach targets tasks st →
    measure targets tasks st = n → ∃ st', Later targets tasks st st' ∧ Terminal targets tasks st' ∧
      (∀ q, .startFailed q ∈ st'.trace → .startFailed q ∈ st.trace) ∧
      ∀ q t, .handleEnd q t false ∈ st'.trace → .handleEnd q t false ∈ st.trace := by
  induction n using Nat.strongRecOn with
  | _ n ih =>
    intro st h hn
    obtain ⟨hc, hf⟩ := h.inv wf wft
    by_cases hterm : Terminal targets tasks st
    · exact ⟨st, .refl, hterm, fun _ h => h, fun _ _ h => h⟩
    · have go : ∀ st1, Step targets tasks st st1 →
          (∀ q, .startFailed q ∈ st1.trace → .startFailed q ∈ st.trace) →
          (∀ q t, .handleEnd q t false ∈ st1.trace → .handleEnd q t false ∈ st.trace) →
          ∃ st', Later targets tasks st st' ∧ Terminal targets tasks st' ∧
            (∀ q, .startFailed q ∈ st'.trace → .startFailed q ∈ st.trace) ∧
            ∀ q t, .handleEnd q t false ∈ st'.trace → .handleEnd q t false ∈ st.trace := by
        intro st1 hs h1 h2
        have := measure_decreases wf wft hc hf hs
        obtain ⟨st', g1, g2, g3, g4⟩ := ih _ (by omega) st1 (.step h hs) rfl
        exact ⟨st', .head hs g1, g2, fun q hq => h1 q (g3 q hq), fun q t hq => h2 q t (g4 q t hq)⟩
      simp only [Terminal, not_forall, not_not] at hterm
      obtain ⟨st1, hs⟩ := hterm
      have hs0 := hs
      cases hs with
      | targetStartFail q rest h => exact go _ (.targetStart st q rest h) (by simp) (by simp)
      | handleEnd q t ok h => exact go _ (.handleEnd st q t true h) (by simp) (by simp)
      | _ => exact go _ hs0 (by simp) (by simp)

/-- With a cycle or an unknown dependency nothing is handed out. -/
theorem new_error (wft : tasks.WF) (hv : ¬ ValidDeps tasks) : ∃ e, new targets tasks = some (.error e) := by
  have wf' : (depInput tasks).WF := by
    simpa [depInput, GoMap.WF, GoMap.keys, Function.comp_def] using wft
  have hedge : Spec.Edge (depInput tasks) = After tasks := by
    funext a b; exact propext edge_depInput
  unfold new
  rcases newDependencyGraph_cases wf' with ⟨n, m, e, h1, h2⟩ | ⟨c, e, h1, h2, h3⟩ | ⟨g, e, h1, h2, _⟩
  · simp only [depInput] at e
    rw [e]
    exact ⟨_, rfl⟩
  · simp only [depInput] at e
    rw [e]
    exact ⟨_, rfl⟩
  · refine absurd ⟨?_, ?_⟩ hv
    · intro t m hm
      have := h1 t m (edge_depInput.2 hm)
      rwa [keys_depInput] at this
    · rw [hedge] at h2
      exact h2

theorem nothing_out (wf : targets.WF) (wft : tasks.WF) (hv : ¬ ValidDeps tasks) {st : St}
    (h : Reach targets tasks st) : st.out = [] := by
  obtain ⟨hc, hf⟩ := h.inv wf wft
  rcases hf.protocol with e | ⟨s, hp⟩
  · exact e
  · obtain ⟨e, hn⟩ := new_error (targets := targets) wft hv
    exfalso
    generalize st.out = out, st.completed = completed at hp
    induction hp with
    | new h => rw [hn] at h; cases h
    | next _ _ _ _ _ _ ih => exact ih

/-! ## C20 -/

/-- **C20, the other runbooks.** If the dependencies have a cycle or name no task, then no task is ever started, and
`Run` can return nil. -/
theorem C20_invalid (wf : targets.WF) (wft : tasks.WF) (hvt : ValidTargets targets tasks)
    (hlim : ∀ q n, targets.get? q = some n → 1 ≤ n) (hv : ¬ ValidDeps tasks) :
    (∀ st, Reach targets tasks st → ∀ q t, .handleStart q t ∉ st.trace) ∧
    ∃ st, Reach targets tasks st ∧ st.main = .returned none := by
  have hno : ∀ st, Reach targets tasks st → ∀ q t, .handleStart q t ∉ st.trace := by
    intro st h q t hs
    have := (h.inv wf wft).2.runOut q t hs
    rw [nothing_out wf wft hv h] at this
    cases this
  refine ⟨hno, ?_⟩
  have hne : tasks ≠ [] := by
    rintro rfl
    refine hv ⟨?_, ?_⟩
    · rintro t m ⟨task, h, _⟩
      simp [GoMap.get?] at h
    · intro t ht
      rw [Relation.transGen_iff] at ht
      rcases ht with ⟨task, h, _⟩ | ⟨_, _, ⟨task, h, _⟩⟩ <;> simp [GoMap.get?] at h
  have h0 : Reach targets tasks (init targets.keys) := .init _ (List.Perm.refl _)
  obtain ⟨st', h1, h2, h3, h4⟩ := comes_to_rest wf wft _ _ h0 rfl
  refine ⟨st', h1.reach h0, ?_⟩
  exact C21_no_deadlock_when_all_succeed_partial wf wft hvt hlim hne (h1.reach h0)
    (fun q hq => by simpa [init] using h3 q hq) (fun q t hq => by simpa [init] using h4 q t hq) h2

/-- **C20, exactly.** That `Run` returns nil means that every task was handled successfully if and only if the
dependencies are valid. -/
theorem C20_exact (wf : targets.WF) (wft : tasks.WF) (hvt : ValidTargets targets tasks)
    (hlim : ∀ q n, targets.get? q = some n → 1 ≤ n) :
    (∀ st, Reach targets tasks st → st.main = .returned none →
      ∀ t ∈ tasks.keys, ∃ q, .handleEnd q t true ∈ st.trace) ↔ ValidDeps tasks := by
  constructor
  · intro hall
    by_contra hv
    obtain ⟨hno, st, h, hret⟩ := C20_invalid wf wft hvt hlim hv
    have hne : tasks.keys = [] := by
      rw [List.eq_nil_iff_forall_not_mem]
      intro t ht
      obtain ⟨q, hq⟩ := hall st h hret t ht
      exact hno st h q t ((h.inv wf wft).2.endTr q t true hq)
    refine hv ⟨?_, ?_⟩
    · rintro t m ⟨task, h, _⟩
      have := GoMap.mem_keys_of_get? h
      rw [hne] at this
      cases this
    · intro t ht
      rw [Relation.transGen_iff] at ht
      rcases ht with ⟨task, h, _⟩ | ⟨_, _, ⟨task, h, _⟩⟩
      all_goals
        have := GoMap.mem_keys_of_get? h
        rw [hne] at this
        cases this
  · intro hv st h hret t ht
    exact (C20_nil_means_all_succeeded_partial wf wft hv h hret t ht).2

/-! ## C21 -/

/-- The position of the program when there is nothing to do. -/
structure Idle (st : St) : Prop where
  main : (∃ l, st.main = .starting l) ∨ st.main = .loop1
  sched : st.sched = .start ∨ ∃ s, st.sched = .sending s []
  router : st.router = .notStarted ∨ st.router = .recv
  tgt : ∀ q, st.tgt q = .notStarted ∨ st.tgt q = .idle
  ready : st.ready = []
  ended : st.ended = []
  done : st.done = []
  open' : st.doneClosed = false

theorem new_nil (targets : GoMap Str Int) : ∃ s, new targets [] = some (.ok (s, [])) := ⟨_, rfl⟩

theorem no_tasks {st : St} (h : Reach targets [] st) : (∃ q, .startFailed q ∈ st.trace) ∨ Idle st := by
  obtain ⟨s0, hn⟩ := new_nil targets
  induction h with
  | init order h => right; constructor <;> simp [init]
  | @step st st' h hs ih =>
    rcases ih with ⟨q, hq⟩ | ih
    · left
      refine ⟨q, ?_⟩
      rcases step_trace hs with e | ⟨_, e⟩
      · rw [e]; exact hq
      · rw [e]; exact List.mem_append_left _ hq
    · obtain ⟨h1, h2, h3, h4, h5, h6, h7, h8⟩ := ih
      cases hs with
      | targetStartFail q rest h => exact .inl ⟨q, by simp⟩
      | schedNew s r r' h hn' hp =>
        rw [hn] at hn'
        cases hn'
        rw [List.perm_nil] at hp
        subst hp
        exact .inr ⟨h1, .inr ⟨_, rfl⟩, h3, h4, h5, h6, h7, h8⟩
      | _ => first
        | (exfalso; grind)
        | (right; constructor <;> grind)

/-- **C21, the other runbooks.** Without tasks `Run` never returns, unless a target cannot be started. -/
theorem C21_no_tasks (wf : targets.WF) {st : St} (h : Reach targets [] st) {e : Option RunErr}
    (hret : st.main = .returned e) : ∃ q, e = some (.start q) ∧ .startFailed q ∈ st.trace := by
  have hc := (h.inv wf (by simp [GoMap.WF, GoMap.keys])).1
  rcases no_tasks h with ⟨q, hq⟩ | hi
  · rcases (hc.startErr q).1 hq with e' | e' <;> rw [hret] at e'
    · cases e'
    · cases e'
      exact ⟨q, rfl, hq⟩
  · rcases hi.main with ⟨l, e'⟩ | e' <;> rw [hret] at e' <;> cases e'

/-- **C21, exactly.** That `Run` has returned nil wherever the program comes to rest without a failure is true of a
runbook if and only if it has a task. -/
theorem C21_exact (wf : targets.WF) (wft : tasks.WF) (hvt : ValidTargets targets tasks)
    (hlim : ∀ q n, targets.get? q = some n → 1 ≤ n) :
    (∀ st, Reach targets tasks st → (∀ q, .startFailed q ∉ st.trace) → (∀ q t, .handleEnd q t false ∉ st.trace) →
      Terminal targets tasks st → st.main = .returned none) ↔ tasks ≠ [] := by
  constructor
  · rintro hall rfl
    have h0 : Reach targets [] (init targets.keys) := .init _ (List.Perm.refl _)
    obtain ⟨st', h1, h2, h3, h4⟩ := comes_to_rest wf wft _ _ h0 rfl
    have hr := hall st' (h1.reach h0) (fun q hq => by simpa [init] using h3 q hq)
      (fun q t hq => by simpa [init] using h4 q t hq) h2
    obtain ⟨q, e, _⟩ := C21_no_tasks wf (h1.reach h0) hr
    cases e
  · intro hne st h hs hf ht
    exact C21_no_deadlock_when_all_succeed_partial wf wft hvt hlim hne h hs hf ht

/-! ## C22 -/

/-- **C22, the other runs.** If `Handle` fails on a target to which another task has been handed out that has not
been started, then `Run` never returns, whatever happens afterwards (unless a target could not be started). -/
theorem C22_stranded (wf : targets.WF) (wft : tasks.WF) {st st' : St} (h : Reach targets tasks st)
    (hst : Stranded st) (hl : Later targets tasks st st') {e : Option RunErr} (hret : st'.main = .returned e) :
    ∃ q, e = some (.start q) := by
  have key : Reach targets tasks st' ∧ Stranded st' := by
    clear hret
    induction hl with
    | refl => exact ⟨h, hst⟩
    | tail _ hs ih => exact ⟨.step ih.1 hs, ih.2.step wf wft ih.1 hs⟩
  exact key.2.not_returned wf wft key.1 hret

/-- **C22, exactly.** Wherever the program comes to rest, `Run` has returned if and only if no task is stranded, or a
target could not be started. -/
theorem C22_exact (wf : targets.WF) (wft : tasks.WF) (hvt : ValidTargets targets tasks)
    (hlim : ∀ q n, targets.get? q = some n → 1 ≤ n) (hne : tasks ≠ []) {st : St} (h : Reach targets tasks st)
    (hterm : Terminal targets tasks st) :
    (∃ e, st.main = .returned e) ↔ ¬ Stranded st ∨ ∃ q, .startFailed q ∈ st.trace := by
  obtain ⟨hc, hf⟩ := h.inv wf wft
  constructor
  · rintro ⟨e, he⟩
    by_cases hst : Stranded st
    · obtain ⟨q, rfl⟩ := hst.not_returned wf wft h he
      exact .inr ⟨q, (hc.startErr q).2 (.inr he)⟩
    · exact .inl hst
  · intro hh
    by_contra hno
    rcases hh with hst | ⟨q, hq⟩
    · obtain ⟨st', hs⟩ := progress' wf wft hvt (fun q n hq => by have := hlim q n hq; omega) hne hc hf
        (fun q t t' hf' hb => hst ⟨q, t, t', hf', hf.beforeOut _ hb, not_started wf wft h hb⟩)
        (fun e he => hno ⟨e, he⟩)
      exact hterm _ hs
    · rcases (hc.startErr q).1 hq with e | e
      · exact hterm _ (.returnStartErr st q e)
      · exact hno ⟨_, e⟩

/-! ## Cases that meet the hypotheses -/

/-- C20: a runbook with a task after itself. -/
example : ¬ ValidDeps cycTasks := fun h => h.acyclic b!"a" (.single ⟨_, rfl, by decide⟩)

/-- C22: two tasks on a target with concurrency 2, one of which fails. -/
example : ∃ st, Reach twoTargets twoTasks st ∧ Stranded st := by
  have r0 : Reach twoTargets twoTasks _ := Reach.init [b!"x"] (List.Perm.refl _)
  have r1 := Reach.step r0 (Step.targetStart _ b!"x" [] rfl)
  have r2 := Reach.step r1 (Step.targetsStarted _ rfl)
  have r3 := Reach.step r2 (Step.schedNew _ _ _ _ rfl rfl (List.Perm.refl _))
  have r4 := Reach.step r3 (Step.schedSend _ _ (b!"x", b!"a") [(b!"x", b!"b")] rfl (by decide))
  have r5 := Reach.step r4 (Step.routerRecv _ b!"x" b!"a" [] rfl rfl)
  have r6 := Reach.step r5 (Step.routerSend _ b!"x" b!"a" rfl rfl)
  have r7 := Reach.step r6 (Step.handleEnd _ b!"x" b!"a" false rfl)
  exact ⟨_, r7, b!"x", b!"a", b!"b", by simp, by decide, by simp [init]⟩

end Verif.Runner
