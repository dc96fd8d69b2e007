import Verif.Runner.Examples

/-!
# C139: a failure stops a run
-/

namespace Verif.Runner
open Verif Dag Sched

variable {targets : GoMap Str Int} {tasks : GoMap Str Task}

/-- A task begins on target `q`. -/
def Event.beginsOn (q : Str) : Event → Bool
  | .handleStart q' _ => q' = q
  | _ => false

/-- A target a task of which has failed does not come back for more. -/
theorem Reach.left (wf : targets.WF) (wft : tasks.WF) {st : St} (h : Reach targets tasks st) :
    ∀ q t, .handleEnd q t false ∈ st.trace →
      (∃ t', st.tgt q = .reporting t' false) ∨ st.tgt q = .stopping ∨ st.tgt q = .stopped := by
  induction h with
  | init order h => simp [Runner.init]
  | @step st st' h hs ih =>
    intro q t hq
    have hst := (h.inv wf wft).1.starting
    have htr := (h.inv wf wft).2.endTr
    have hru := (h.inv wf wft).2.runOut
    have hno : ∀ l, st.main = .starting l → ∀ q' ∈ l, st.tgt q' = .notStarted := fun l hl q' hq' =>
      ((hst l hl).2.2 q' ((hst l hl).2.1 q' hq')).2 hq'
    clear hst htr hru h
    cases hs with
    | targetStart q' rest hm =>
      have h1 := hno _ hm q' (by simp)
      have h2 := ih q t (by simpa using hq)
      have : q ≠ q' := by rintro rfl; rw [h1] at h2; simp at h2
      simpa [Function.update_of_ne this] using h2
    | _ => grind

/-- **C139: its own target.** After a task has failed no task begins on its target. -/
theorem C139_own_target (wf : targets.WF) (wft : tasks.WF) {st : St} (h : Reach targets tasks st)
    {pre post : List Event} {q t : Str} (ht : st.trace = pre ++ .handleEnd q t false :: post) (t' : Str) :
    .handleStart q t' ∉ post := by
  intro hm
  obtain ⟨a, b, rfl⟩ := List.append_of_mem hm
  obtain ⟨st0, st1, h0, hs, e0, e1⟩ := h.split (pre := pre ++ .handleEnd q t false :: a)
    (e := .handleStart q t') (post := b) (by rw [ht]; simp)
  have h1 := h0.left wf wft q t (by rw [e0]; simp)
  have h2 := (step_handleStart hs (by rw [e1, e0])).1
  grind

/-- What happens when `done` has been closed. -/
theorem closed_step {st st' : St} (hc : Ctl targets st) (hd : st.doneClosed = true) (hs : Step targets tasks st st') :
    st'.doneClosed = true ∧ (∃ more, st'.trace = st.trace ++ more) ∧
    ∀ c, c ∈ st'.completed ∨ c ∈ st'.done → c ∈ st.completed ∨ c ∈ st.done := by
  have h1 := hc.closed.1 hd
  refine ⟨?_, ?_, ?_⟩
  · clear hc
    cases hs <;> grind
  · rcases step_trace hs with e | ⟨e, h⟩
    · exact ⟨[], by simp [e]⟩
    · exact ⟨[e], h⟩
  · clear hc
    cases hs <;> grind

theorem closed_steps (wf : targets.WF) (wft : tasks.WF) {st st' : St} (h : Reach targets tasks st)
    (hd : st.doneClosed = true) (hs : Relation.ReflTransGen (Step targets tasks) st st') :
    Reach targets tasks st' ∧ st'.doneClosed = true ∧ (∃ more, st'.trace = st.trace ++ more) ∧
    ∀ c, c ∈ st'.completed ∨ c ∈ st'.done → c ∈ st.completed ∨ c ∈ st.done := by
  induction hs with
  | refl => exact ⟨h, hd, ⟨[], by simp⟩, fun c hc => hc⟩
  | tail _ hs ih =>
    obtain ⟨h1, h2, ⟨more, h3⟩, h4⟩ := ih
    obtain ⟨g1, ⟨more', g2⟩, g3⟩ := closed_step (h1.inv wf wft).1 h2 hs
    exact ⟨h1.step hs, g1, ⟨more ++ more', by rw [g2, h3, List.append_assoc]⟩, fun c hc => h4 c (g3 c hc)⟩

/-- The tasks that begin on a target. -/
def begunOn (q : Str) (tr : List Event) : List Str :=
  tr.filterMap fun e => match e with | .handleStart q' t => if q' = q then some t else none | _ => none

theorem mem_begunOn {q t : Str} {tr : List Event} : t ∈ begunOn q tr ↔ .handleStart q t ∈ tr := by
  unfold begunOn
  rw [List.mem_filterMap]
  constructor
  · rintro ⟨e, he, h⟩
    cases e <;> grind
  · intro h
    exact ⟨_, h, by simp⟩

theorem begunOn_length (q : Str) (tr : List Event) : (begunOn q tr).length = tr.countP (Event.beginsOn q) := by
  induction tr with
  | nil => rfl
  | cons e tr ih =>
    unfold begunOn at ih ⊢
    rw [List.countP_cons, List.filterMap_cons]
    cases e <;> simp only [Event.beginsOn] <;> grind

theorem begunOn_nodup {q : Str} {tr : List Event} (h : ∀ t, starts tr t ≤ 1) : (begunOn q tr).Nodup := by
  rw [List.nodup_iff_count_le_one]
  intro t
  refine Nat.le_trans ?_ (h t)
  unfold starts
  clear h
  induction tr with
  | nil => simp [begunOn]
  | cons e tr ih =>
    unfold begunOn at ih ⊢
    rw [List.countP_cons, List.filterMap_cons]
    cases e <;> simp only [Event.isStart] <;> grind

/-- **C139 (partial).** Once a run is being stopped (`Run` has taken note of a failure of a task, or a target could not
be started): on every target at most as many tasks begin as its concurrency says, and of them none that is after a task
that had not succeeded by then.
Missing: that none begins (`C139_refuted`), and a dependency on a task named "" (C12). -/
theorem C139_stops_partial (wf : targets.WF) (wft : tasks.WF) (hlim : ∀ q n, targets.get? q = some n → 0 ≤ n)
    {st st' : St} (h : Reach targets tasks st) (hd : st.doneClosed = true)
    (hs : Relation.ReflTransGen (Step targets tasks) st st') : ∃ more, st'.trace = st.trace ++ more ∧
    (∀ q n, targets.get? q = some n → (more.countP (Event.beginsOn q) : Int) ≤ n) ∧
    ∀ q t, .handleStart q t ∈ more → ∀ m, After tasks t m → m ≠ b!"" → ∃ q', .handleEnd q' m true ∈ st.trace := by
  obtain ⟨h', _, ⟨more, e⟩, hcomp⟩ := closed_steps wf wft h hd hs
  obtain ⟨hc, hf⟩ := h.inv wf wft
  obtain ⟨hc', hf'⟩ := h'.inv wf wft
  have hok : ∀ c ∈ st'.completed, ∃ q, .handleEnd q c true ∈ st.trace := by
    intro c hcc
    rcases hcomp c (.inl hcc) with g | g
    · exact hf.okTr c (.inr (.inr g))
    · exact hf.okTr c (.inr (.inl g))
  have hone := (C19_run_at_most_once_one_per_target wf wft h').1
  have hnew : ∀ q t, .handleStart q t ∈ more → t ∉ st'.completed := by
    intro q t hm hcc
    obtain ⟨q', hq'⟩ := hok t hcc
    have h1 : 0 < starts st.trace t :=
      List.countP_pos_iff.2 ⟨_, hf.endTr q' t true hq', by simp [Event.isStart]⟩
    have h2 : 0 < starts more t := List.countP_pos_iff.2 ⟨_, hm, by simp [Event.isStart]⟩
    have h3 := hone t
    rw [e] at h3
    unfold starts at h1 h2 h3
    rw [List.countP_append] at h3
    omega
  refine ⟨more, e, ?_, ?_⟩
  · intro q n hq
    rcases hf'.protocol with hp | ⟨s, hp⟩
    · have : more.countP (Event.beginsOn q) = 0 := by
        rw [List.countP_eq_zero]
        intro ev hev hb
        cases ev with
        | handleStart q' t =>
          have := hf'.runOut q' t (by rw [e]; exact List.mem_append_right _ hev)
          rw [hp] at this
          cases this
        | _ => simp [Event.beginsOn] at hb
      rw [this]
      exact hlim q n hq
    · refine le_trans ?_ (C14_concurrency_limit wft hlim hp q n hq)
      rw [← begunOn_length]
      refine Int.ofNat_le.2 (List.Subperm.length_le (List.subperm_of_subset (begunOn_nodup ?_) ?_))
      · intro t
        refine Nat.le_trans ?_ (hone t)
        rw [e]
        unfold starts
        rw [List.countP_append]
        omega
      · intro t ht
        have ht := mem_begunOn.1 ht
        have h1 := hf'.runOut q t (by rw [e]; exact List.mem_append_right _ ht)
        simp only [inFlight, List.mem_filter, List.mem_map, decide_eq_true_eq]
        exact ⟨⟨(q, t), ⟨h1, rfl⟩, rfl⟩, hnew q t ht⟩
  · intro q t hm m hafter hm0
    have ho := hf'.runOut q t (by rw [e]; exact List.mem_append_right _ hm)
    rcases hf'.protocol with hp | ⟨s, hp⟩
    · rw [hp] at ho; cases ho
    · exact hok m (C12_scheduler_dependencies_partial wft hp.history ho hafter hm0)

/-- **C139 refuted**: "a" has failed and `Run` has taken note of it; then "b" begins on the other target. -/
theorem C139_refuted : ∃ st st', Reach failTargets failTasks st ∧ st.main = .loop2 (some b!"a") ∧
    Relation.ReflTransGen (Step failTargets failTasks) st st' ∧
    st.trace = [.started b!"x", .started b!"y", .handleStart b!"x" b!"a", .handleEnd b!"x" b!"a" false] ∧
    st'.trace = st.trace ++ [.handleStart b!"y" b!"b"] := by
  have r0 : Reach failTargets failTasks _ := Reach.init [b!"x", b!"y"] (List.Perm.refl _)
  have r1 := Reach.step r0 (Step.targetStart _ b!"x" [b!"y"] rfl)
  have r2 := Reach.step r1 (Step.targetStart _ b!"y" [] rfl)
  have r3 := Reach.step r2 (Step.targetsStarted _ rfl)
  have r4 := Reach.step r3 (Step.schedNew _ _ _ _ rfl rfl (List.Perm.refl _))
  have r5 := Reach.step r4 (Step.schedSend _ _ (b!"x", b!"a") [(b!"y", b!"b")] rfl (by decide))
  have r6 := Reach.step r5 (Step.schedSend _ _ (b!"y", b!"b") [] rfl (by decide))
  have r7 := Reach.step r6 (Step.routerRecv _ b!"x" b!"a" [(b!"y", b!"b")] rfl rfl)
  have r8 := Reach.step r7 (Step.routerSend _ b!"x" b!"a" rfl rfl)
  have r9 := Reach.step r8 (Step.handleEnd _ b!"x" b!"a" false rfl)
  have r10 := Reach.step r9 (Step.report _ b!"x" b!"a" false rfl (by decide))
  have r11 := Reach.step r10 (Step.mainErr _ b!"a" [] rfl rfl)
  have go : ∀ {a b : St}, Reach failTargets failTasks a → Step failTargets failTasks a b →
    Step failTargets failTasks a b := fun _ s => s
  have s1 := go r11 (Step.routerRecv _ b!"y" b!"b" [] rfl rfl)
  have s2 := go (Reach.step r11 s1) (Step.routerSend _ b!"y" b!"b" rfl rfl)
  exact ⟨_, _, r11, rfl, .head s1 (.single s2), rfl, rfl⟩

/-- The hypotheses of C139_stops_partial are met, and here the bound is reached: one task begins on "y". -/
example : failTargets.WF ∧ failTasks.WF ∧ (∀ q n, failTargets.get? q = some n → 0 ≤ n) ∧
    failTargets.get? b!"y" = some 1 ∧ [Event.handleStart b!"y" b!"b"].countP (Event.beginsOn b!"y") = 1 := by
  refine ⟨by decide, by decide, ?_, by decide, by decide⟩
  intro q n h
  have := GoMap.mem_of_get? h
  simp only [failTargets, List.mem_cons, Prod.mk.injEq, List.not_mem_nil, or_false] at this
  rcases this with ⟨_, rfl⟩ | ⟨_, rfl⟩ <;> decide

end Verif.Runner
