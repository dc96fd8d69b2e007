import Verif.Run.Success

/-!
# C109: the messages of tasks

runner.go:172-177 in finer steps: after it has received a task (line 173) and before it calls `Handle` (line 177), the
goroutine of a target logs the message of the task, if there is one.  In between the other goroutines go on.
-/

namespace Verif.Run
open Verif Book Spec

/-- The state of a run with the messages: `greet q` if the goroutine of target `q` has received a task and not got past
line 176; `log` are the messages logged, with the tasks they were logged for. -/
structure Talk where
  st : Runner.St
  w : World
  greet : Str → Bool := fun _ => false
  log : List (Str × Str) := []

/-- What an action of the runner does to `greet`: a target that receives a task (in the trace this is `handleStart`) is
to log its message, and `Handle` returns only after that. -/
inductive Hears (g : Str → Bool) (tr : List Runner.Event) : List Runner.Event → (Str → Bool) → Prop
  | quiet : Hears g tr tr g
  /-- runner.go:173 -/
  | received (q t : Str) : Hears g tr (tr ++ [.handleStart q t]) (Function.update g q true)
  /-- runner.go:177 -/
  | handled (q t : Str) (ok : Bool) (h : g q = false) : Hears g tr (tr ++ [.handleEnd q t ok]) g
  | other (e : Runner.Event) (h1 : ∀ q t, e ≠ .handleStart q t) (h2 : ∀ q t ok, e ≠ .handleEnd q t ok) :
      Hears g tr (tr ++ [e]) g

/-- One action. -/
inductive TAct (proc : Proc) (book : Runbook) : Talk → Talk → Prop
  | act {s : Talk} {st' : Runner.St} {w' : World} {g' : Str → Bool} (h : Act proc book (s.st, s.w) (st', w'))
      (hg : Hears s.greet s.st.trace st'.trace g') : TAct proc book s { s with st := st', w := w', greet := g' }
  /-- runner.go:174-176 -/
  | say {s : Talk} {q t : Str} {task : Task} (hr : s.st.tgt q = .running t) (hg : s.greet q = true)
      (ht : book.tasks.get? t = some task) :
      TAct proc book s { s with
        greet := Function.update s.greet q false
        log := s.log ++ if task.message = [] then [] else [(t, task.message)] }

/-- The states a run of a file can be in, with the messages logged. -/
inductive TReach (dec : Decoder) (basedir : Str) (proc : Proc) (src : Src) (book : Runbook) : Talk → Prop
  | start (h : parse dec basedir src = .ok book) (hm : Runner.capacity (limits book) ≤ proc.maxChan) (order : List Str)
      (ho : order.Perm (limits book).keys) :
      TReach dec basedir proc src book { st := Runner.init order, w := { targets := book.targets } }
  | act {s s' : Talk} (h : TReach dec basedir proc src book s) (ha : TAct proc book s s') :
      TReach dec basedir proc src book s'

variable {dec : Decoder} {basedir : Str} {proc : Proc} {src : Src} {book : Runbook} {s : Talk}

/-- Without the messages the runs are those of `Reach`. -/
theorem TReach.reach (h : TReach dec basedir proc src book s) : Reach dec basedir proc src (.running book s.st s.w) := by
  induction h with
  | start h hm order ho => exact .start h hm order ho
  | act h ha ih =>
    cases ha with
    | act ha _ => exact .act ih ha
    | say => exact ih

/-! ## Invariants -/

theorem step_running {targets : GoMap Str Int} {tasks : GoMap Str Sched.Task} {st st' : Runner.St}
    (hctl : Runner.Ctl targets st) (hs : Runner.Step targets tasks st st') {q t : Str} (h : st.tgt q = .running t) :
    st'.tgt q = .running t ∨ ∃ ok, st'.trace = st.trace ++ [.handleEnd q t ok] := by
  have upd : ∀ {q' : Str} {x : Runner.TgtPC}, st.tgt q' ≠ .running t → (Function.update st.tgt q' x) q = .running t := by
    intro q' x hne
    by_cases e : q = q'
    · subst e; exact absurd h hne
    · rw [Function.update_of_ne e]; exact h
  cases hs with
  | targetStart q' rest hm =>
    have hl := hctl.starting _ hm
    have := (hl.2.2 q' (hl.2.1 q' (by simp))).2 (by simp)
    exact .inl (upd (by rw [this]; simp))
  | routerSend q' t' hr ht => exact .inl (upd (by rw [ht]; simp))
  | handleEnd q' t' ok hr =>
    by_cases e : q = q'
    · subst e
      rw [h] at hr
      cases hr
      exact .inr ⟨ok, rfl⟩
    · exact .inl (by simp only; rw [Function.update_of_ne e]; exact h)
  | report q' t' ok hr _ => exact .inl (upd (by rw [hr]; simp))
  | targetClosed q' hr _ => exact .inl (upd (by rw [hr]; simp))
  | targetStop q' hr => exact .inl (upd (by rw [hr]; simp))
  | _ => exact .inl h

theorem step_received {targets : GoMap Str Int} {tasks : GoMap Str Sched.Task} {st st' : Runner.St}
    (hs : Runner.Step targets tasks st st') {q t : Str} (h : st'.trace = st.trace ++ [.handleStart q t]) :
    st'.tgt q = .running t := by
  cases hs with
  | routerSend q' t' hr ht =>
    simp only [List.append_cancel_left_eq, List.cons.injEq, Runner.Event.handleStart.injEq, and_true] at h
    obtain ⟨rfl, rfl⟩ := h
    simp
  | _ => simp_all

/-- A task that is being handled has not ended. -/
theorem running_not_ended (hp : Parsed basedir book) {st : Runner.St} (h : Runner.Reach (limits book) (jobs book) st)
    {q t : Str} (hr : st.tgt q = .running t) : ∀ q' ok, .handleEnd q' t ok ∉ st.trace := by
  intro q' ok hin
  have h' := Runner.Reach.step h (Runner.Step.handleEnd st q t true hr)
  exact end_once hp h' (p := st.trace) (s := []) rfl q' ok (by simpa using hin)

/-- A task is started once. -/
theorem received_once (hp : Parsed basedir book) {st : Runner.St} (h : Runner.Reach (limits book) (jobs book) st)
    {q t : Str} {tr : List Runner.Event} (e : st.trace = tr ++ [.handleStart q t]) : ∀ q', .handleStart q' t ∉ tr := by
  intro q' hin
  have hle := (Runner.C19_run_at_most_once_one_per_target hp.wf1 hp.wf2 h).1 t
  have h1 : 1 ≤ tr.countP (Runner.Event.isStart t) := by
    rw [Nat.one_le_iff_ne_zero, ← Nat.pos_iff_ne_zero, List.countP_pos_iff]
    exact ⟨_, hin, by simp [Runner.Event.isStart]⟩
  rw [e] at hle
  simp only [Runner.starts, List.countP_append, List.countP_cons, Runner.Event.isStart, decide_true, if_pos] at hle h1
  omega

structure TInv (book : Runbook) (s : Talk) : Prop where
  greet : ∀ q, s.greet q = true → ∃ t, s.st.tgt q = .running t ∧ t ∉ s.log.map Prod.fst
  entry : ∀ t m, (t, m) ∈ s.log → m ≠ [] ∧ (∃ task, book.tasks.get? t = some task ∧ task.message = m) ∧
    ∃ q, .handleStart q t ∈ s.st.trace
  said : ∀ q t task, .handleStart q t ∈ s.st.trace → book.tasks.get? t = some task → task.message ≠ [] →
    (s.st.tgt q = .running t ∧ s.greet q = true) ∨ (t, task.message) ∈ s.log
  nodup : (s.log.map Prod.fst).Nodup

theorem TReach.inv (hj : Json dec) (hw1 : src.targets.WF) (hw2 : src.tasks.WF)
    (h : TReach dec basedir proc src book s) : TInv book s := by
  induction h with
  | start h hm order ho => exact ⟨by simp, by simp, by simp [Runner.init], by simp⟩
  | @act s s' h ha ih =>
    have hr := h.reach
    have hp := parsed hj hw1 hw2 hr.parse
    cases ha with
    | @act st' w' g' ha hg =>
      have hr' := Reach.act hr ha
      have hctl := (hr.runner.inv hp.wf1 hp.wf2).1
      have hs := ha.step
      have keep : ∀ {q t}, s.st.tgt q = .running t → (∀ ok, st'.trace ≠ s.st.trace ++ [.handleEnd q t ok]) →
          st'.tgt q = .running t := by
        intro q t h1 h2
        rcases step_running hctl hs h1 with h | ⟨ok, h⟩
        · exact h
        · exact absurd h (h2 ok)
      have hlog : ∀ t m, (t, m) ∈ s.log → m ≠ [] ∧ (∃ task, book.tasks.get? t = some task ∧ task.message = m) ∧
          ∃ q, .handleStart q t ∈ st'.trace := by
        intro t m hin
        obtain ⟨h1, h2, q, h3⟩ := ih.entry t m hin
        refine ⟨h1, h2, q, ?_⟩
        generalize htr : st'.trace = tr' at hg
        cases hg with
        | quiet => exact h3
        | received => simp [h3]
        | handled => simp [h3]
        | other => simp [h3]
      -- the actions in which no target receives a task
      have easy : (∀ q t ok, s.greet q = true → st'.trace ≠ s.st.trace ++ [.handleEnd q t ok]) →
          (∀ q t, .handleStart q t ∈ st'.trace → .handleStart q t ∈ s.st.trace) →
          TInv book { s with st := st', w := w' } := by
        intro h1 h2
        refine ⟨?_, hlog, ?_, ih.nodup⟩
        · intro q hq
          obtain ⟨t, ht, hn⟩ := ih.greet q hq
          exact ⟨t, keep ht fun ok => h1 q t ok hq, hn⟩
        · intro q t task hin ht hm
          rcases ih.said q t task (h2 q t hin) ht hm with ⟨h3, h4⟩ | h3
          · exact .inl ⟨keep h3 fun ok => h1 q t ok h4, h4⟩
          · exact .inr h3
      generalize htr : st'.trace = tr' at hg
      cases hg with
      | quiet =>
        refine easy ?_ ?_
        · intro q t ok _ e
          rw [htr] at e
          simpa using congrArg List.length e
        · intro q t hin; rwa [htr] at hin
      | received q t =>
        have hrun := step_received hs htr
        have hnew : t ∉ s.log.map Prod.fst := by
          intro hin
          obtain ⟨⟨_, m⟩, hin', rfl⟩ := List.mem_map.1 hin
          obtain ⟨_, _, q', hq'⟩ := ih.entry _ m hin'
          exact received_once hp hr'.runner htr q' hq'
        refine ⟨?_, hlog, ?_, ih.nodup⟩
        · intro q' hq'
          by_cases e : q' = q
          · subst e; exact ⟨t, hrun, hnew⟩
          · simp only at hq'
            rw [Function.update_of_ne e] at hq'
            obtain ⟨t', ht', hn⟩ := ih.greet q' hq'
            exact ⟨t', keep ht' (by rw [htr]; simp), hn⟩
        · intro q' t' task hin ht hm
          simp only [htr, List.mem_append, List.mem_singleton, Runner.Event.handleStart.injEq] at hin
          rcases hin with hin | ⟨rfl, rfl⟩
          · rcases ih.said q' t' task hin ht hm with ⟨h3, h4⟩ | h3
            · refine .inl ⟨keep h3 (by rw [htr]; simp), ?_⟩
              by_cases e : q' = q
              · subst e; simp
              · simp only; rw [Function.update_of_ne e]; exact h4
            · exact .inr h3
          · exact .inl ⟨hrun, by simp⟩
      | handled q t ok hgq =>
        refine easy ?_ ?_
        · intro q' t' ok' hq' e
          rw [htr] at e
          simp only [List.append_cancel_left_eq, List.cons.injEq, Runner.Event.handleEnd.injEq, and_true] at e
          obtain ⟨rfl, _⟩ := e
          rw [hgq] at hq'
          cases hq'
        · intro q' t' hin
          rw [htr] at hin
          simpa using hin
      | other e h1 h2 =>
        refine easy ?_ ?_
        · intro q' t' ok' hq' e'
          rw [htr] at e'
          simp only [List.append_cancel_left_eq, List.cons.injEq, and_true] at e'
          exact h2 _ _ _ e'
        · intro q' t' hin
          rw [htr] at hin
          simp only [List.mem_append, List.mem_singleton] at hin
          rcases hin with hin | hin
          · exact hin
          · exact absurd hin.symm (h1 _ _)
    | @say q t task hrun hg ht =>
      obtain ⟨t', ht', hnew⟩ := ih.greet q hg
      rw [hrun] at ht'
      cases ht'
      obtain ⟨task', hk', hown⟩ := running_own hp hr.runner hrun
      rw [ht] at hk'
      cases hk'
      have hstarted : .handleStart q t ∈ s.st.trace := by
        have h' := Runner.Reach.step hr.runner (Runner.Step.handleEnd s.st q t true hrun)
        have := (h'.inv hp.wf1 hp.wf2).2.endTr q t true (by simp)
        simpa using this
      have hother : ∀ q', s.st.tgt q' = .running t → q' = q := by
        intro q' hq'
        obtain ⟨task', hk', hown'⟩ := running_own hp hr.runner hq'
        rw [ht] at hk'
        cases hk'
        rw [← hown', hown]
      refine ⟨?_, ?_, ?_, ?_⟩
      · intro q' hq'
        by_cases e : q' = q
        · subst e; simp at hq'
        · simp only at hq'
          rw [Function.update_of_ne e] at hq'
          obtain ⟨t', ht', hn⟩ := ih.greet q' hq'
          refine ⟨t', ht', ?_⟩
          simp only [List.map_append, List.mem_append, not_or]
          refine ⟨hn, ?_⟩
          split
          · simp
          · simp only [List.map_cons, List.map_nil, List.mem_singleton]
            rintro rfl
            exact e (hother q' ht')
      · intro t' m hin
        simp only [List.mem_append] at hin
        rcases hin with hin | hin
        · exact ih.entry t' m hin
        · split at hin
          · simp at hin
          · rename_i hm
            simp only [List.mem_singleton, Prod.mk.injEq] at hin
            obtain ⟨rfl, rfl⟩ := hin
            exact ⟨hm, ⟨task, ht, rfl⟩, q, hstarted⟩
      · intro q' t' task' hin ht' hm
        rcases ih.said q' t' task' hin ht' hm with ⟨h1, h2⟩ | h1
        · by_cases e : q' = q
          · subst e
            rw [hrun] at h1
            cases h1
            rw [ht] at ht'
            cases ht'
            right
            simp [hm]
          · left
            refine ⟨h1, ?_⟩
            simp only
            rw [Function.update_of_ne e]
            exact h2
        · right
          simp [h1]
      · simp only [List.map_append]
        split
        · simpa using ih.nodup
        · simp only [List.map_cons, List.map_nil]
          rw [List.nodup_append]
          exact ⟨ih.nodup, by simp, by
            intro a ha b hb
            simp only [List.mem_singleton] at hb
            rintro rfl
            rw [hb] at ha
            exact hnew ha⟩

/-- Whatever a task that was started follows has ended, with success. -/
theorem follows_start (hj : Json dec) (hw1 : src.targets.WF) (hw2 : src.tasks.WF) (hne : ∀ o, ([], o) ∉ src.tasks)
    {st : Runner.St} {w : World} (h : Reach dec basedir proc src (.running book st w)) {q t m : Str}
    (hin : .handleStart q t ∈ st.trace) (hf : Follows src t m) : ∃ q', .handleEnd q' m true ∈ st.trace := by
  have hp := parsed hj hw1 hw2 h.parse
  have hne' : b!"" ∉ (jobs book).keys := by
    rw [keys_jobs, (C35_parse_result dec basedir src book hw1 hw2 h.parse).2.1]
    intro hin
    obtain ⟨⟨k, o⟩, hp', rfl⟩ := List.mem_map.mp hin
    exact hne o hp'
  obtain ⟨p, r, e⟩ := List.append_of_mem hin
  have single : ∀ {m : Str}, DependsOn src t m → ∃ q', .handleEnd q' m true ∈ p := by
    intro m hd
    have hafter := (after_iff hw1 hw2 h.parse t m).mpr hd
    have hm0 : m ≠ [] := by
      rintro rfl
      exact hne' (h.runner.known hp.wf1 hp.wf2 hin hafter)
    obtain ⟨q', _, _, _, hend⟩ := Runner.C18_run_dependency_order_partial hp.wf1 hp.wf2 h.runner e hafter hm0
    exact ⟨q', hend⟩
  rcases Relation.TransGen.head'_iff.1 hf with ⟨x, hd, hx⟩
  obtain ⟨q', hq'⟩ := single hd
  rcases Relation.reflTransGen_iff_eq_or_transGen.1 hx with rfl | hx
  · exact ⟨q', by rw [e]; simp [hq']⟩
  · obtain ⟨p1, p2, e1⟩ := List.append_of_mem hq'
    obtain ⟨q2, h2⟩ := follows_end hj hw1 hw2 hne h hx (p := p1) (s := p2 ++ .handleStart q t :: r) (q := q') (ok := true)
      (by rw [e, e1]; simp)
    exact ⟨q2, by rw [e, e1]; simp [h2]⟩

theorem TReach.order (hj : Json dec) (hw1 : src.targets.WF) (hw2 : src.tasks.WF) (hne : ∀ o, ([], o) ∉ src.tasks)
    (h : TReach dec basedir proc src book s) : (s.log.map Prod.fst).Pairwise fun a b => ¬ Follows src a b := by
  induction h with
  | start => exact List.Pairwise.nil
  | @act s s' h ha ih =>
    cases ha with
    | act => exact ih
    | @say q t task hr hg ht =>
      simp only [List.map_append]
      rw [List.pairwise_append]
      refine ⟨ih, ?_, ?_⟩
      · split
        · exact List.Pairwise.nil
        · exact List.pairwise_singleton _ _
      · intro a ha b hb hf
        split at hb
        · simp at hb
        · simp only [List.map_cons, List.map_nil, List.mem_singleton] at hb
          subst hb
          obtain ⟨⟨_, m⟩, ha', rfl⟩ := List.mem_map.1 ha
          obtain ⟨_, _, q', hq'⟩ := (h.inv hj hw1 hw2).entry _ m ha'
          obtain ⟨q2, h2⟩ := follows_start hj hw1 hw2 hne h.reach hq' hf
          exact running_not_ended (parsed hj hw1 hw2 h.reach.parse) h.reach.runner hr q2 true h2

theorem mem_messages {t m : Str} :
    (t, m) ∈ messages src ↔ m ≠ [] ∧ ∃ w, (t, some w) ∈ src.tasks ∧ w.message = m := by
  simp only [messages, List.mem_filterMap, Option.bind_eq_some_iff, Option.ite_none_left_eq_some, Option.some.injEq,
    Prod.mk.injEq, Prod.exists]
  constructor
  · rintro ⟨a, b, h1, w, rfl, h2, rfl, rfl⟩; exact ⟨h2, w, h1, rfl⟩
  · rintro ⟨h3, w, h1, rfl⟩; exact ⟨t, some w, h1, w, rfl, h3, rfl, rfl⟩

theorem nodup_messages (hw : src.tasks.WF) : (messages src).Nodup := by
  have hn : src.tasks.Pairwise fun a b => a.1 ≠ b.1 := List.pairwise_map.1 hw
  refine List.Pairwise.filterMap _ ?_ hn
  rintro ⟨a, o⟩ ⟨a', o'⟩ hne b hb b' hb' rfl
  simp only [Option.bind_eq_some_iff, Option.ite_none_left_eq_some, Option.some.injEq] at hb hb'
  obtain ⟨_, _, _, e1⟩ := hb
  obtain ⟨_, _, _, e2⟩ := hb'
  rw [← e2] at e1
  exact hne (Prod.mk.inj e1).1

/-- **C109.** What has been logged are messages of tasks of the file, at most once for each task.  A task that has
ended, or of which a statement was sent or a command run, has had its message logged.  When the message of a task has
been logged, all tasks it comes after, directly or not, have ended with success; so the messages of no two tasks are
logged against the order of the dependencies.  If the dependencies are in order and `Run` returned nil, exactly the
messages in the file have been logged. -/
theorem C109_messages (hj : Json dec) (hw1 : src.targets.WF) (hw2 : src.tasks.WF)
    (h : TReach dec basedir proc src book s) :
    (s.log.map Prod.fst).Nodup ∧ (∀ x ∈ s.log, x ∈ messages src) ∧
    (∀ q t ok, .handleEnd q t ok ∈ s.st.trace → ∀ m, (t, m) ∈ messages src → (t, m) ∈ s.log) ∧
    (∀ x ∈ s.w.calls, ∀ m, (x.1, m) ∈ messages src → (x.1, m) ∈ s.log) ∧
    ((∀ o, ([], o) ∉ src.tasks) →
      (∀ x ∈ s.log, ∀ m, Follows src x.1 m → ∃ q, .handleEnd q m true ∈ s.st.trace) ∧
      (s.log.map Prod.fst).Pairwise fun a b => ¬ Follows src a b) ∧
    (Ordered src → s.st.main = .returned none → s.log.Perm (messages src)) := by
  have hr := h.reach
  have hp := parsed hj hw1 hw2 hr.parse
  have hi := h.inv hj hw1 hw2
  have of_task : ∀ {t task}, (t, task) ∈ book.tasks → ∃ w, (t, some w) ∈ src.tasks ∧ w.message = task.message := by
    intro t task hk
    obtain ⟨w, hs, _, _, _, _, _, _, _, _, _, _, e⟩ := ((C35_parse_result _ basedir src book hw1 hw2 hr.parse).2.2.2 t task).mp hk
    exact ⟨w, hs, e.symm⟩
  have task_of : ∀ {t w}, (t, some w) ∈ src.tasks → ∃ task, (t, task) ∈ book.tasks ∧ task.message = w.message := by
    intro t w hs
    have hin : t ∈ book.tasks.keys := by
      rw [(C35_parse_result _ basedir src book hw1 hw2 hr.parse).2.1]
      exact List.mem_map.2 ⟨_, hs, rfl⟩
    obtain ⟨⟨_, task⟩, hk, rfl⟩ := List.mem_map.1 hin
    obtain ⟨w', hs', e⟩ := of_task hk
    have h1 := GoMap.get?_of_mem hw2 hs
    rw [GoMap.get?_of_mem hw2 hs'] at h1
    cases h1
    exact ⟨task, hk, e.symm⟩
  have h1 : ∀ x ∈ s.log, x ∈ messages src := by
    rintro ⟨t, m⟩ hx
    obtain ⟨hm, ⟨task, ht, rfl⟩, _⟩ := hi.entry t m hx
    obtain ⟨w, hs, e⟩ := of_task (GoMap.mem_of_get? ht)
    exact mem_messages.2 ⟨hm, w, hs, e⟩
  have h2 : ∀ q t ok, .handleEnd q t ok ∈ s.st.trace → ∀ m, (t, m) ∈ messages src → (t, m) ∈ s.log := by
    intro q t ok he m hm
    obtain ⟨hm0, w, hs, rfl⟩ := mem_messages.1 hm
    obtain ⟨task, hk, e⟩ := task_of hs
    rw [← e] at hm0 ⊢
    have hstart := (hr.runner.inv hp.wf1 hp.wf2).2.endTr q t ok he
    rcases hi.said q t task hstart (GoMap.get?_of_mem hp.wfK hk) hm0 with ⟨hrun, _⟩ | h
    · exact absurd he (running_not_ended hp hr.runner hrun q ok)
    · exact h
  refine ⟨hi.nodup, h1, h2, ?_, ?_, ?_⟩
  · intro x hx
    rw [hr.calls hj hw1 hw2] at hx
    obtain ⟨e, he, hxe⟩ := List.mem_flatMap.1 hx
    obtain ⟨q, rfl, _⟩ := mem_callsAt hxe
    exact h2 q x.1 _ he
  · intro hne
    refine ⟨?_, h.order hj hw1 hw2 hne⟩
    rintro ⟨t, m⟩ hx m' hf
    obtain ⟨_, _, q, hq⟩ := hi.entry t m hx
    exact follows_start hj hw1 hw2 hne hr hq hf
  · intro ho hret
    have all := C85_success_means_done_partial hj hw1 hw2 ho hr hret
    refine (List.perm_ext_iff_of_nodup (List.Nodup.of_map _ hi.nodup) (nodup_messages hw2)).2 fun x => ⟨h1 x, ?_⟩
    obtain ⟨t, m⟩ := x
    intro hx
    obtain ⟨_, w, hs, _⟩ := mem_messages.1 hx
    obtain ⟨q, _, pre, mid, post, _, htr, _⟩ := all t w hs
    exact h2 q t true (by rw [htr]; simp) m hx

/-- Every state of a run is met with messages, too: logging holds nothing up. -/
theorem exists_talk (hj : Json dec) (hw1 : src.targets.WF) (hw2 : src.tasks.WF) {st : Runner.St} {w : World}
    (h : Reach dec basedir proc src (.running book st w)) :
    ∃ log, TReach dec basedir proc src book ⟨st, w, fun _ => false, log⟩ := by
  generalize hc : Prog.running book st w = c at h
  induction h generalizing st w with
  | start h hm order ho =>
    cases hc
    exact ⟨_, .start h hm order ho⟩
  | rejected => cases hc
  | parsePanic => cases hc
  | makePanic => cases hc
  | panic => cases hc
  | @act book' st0 st' w0 w' h ha ih =>
    cases hc
    obtain ⟨log, ht⟩ := ih rfl
    have hp := parsed hj hw1 hw2 h.parse
    have hs := ha.step
    have quiet : st'.trace = st0.trace → ∃ log, TReach dec basedir proc src book ⟨st', w', fun _ => false, log⟩ := by
      intro e
      exact ⟨log, .act ht (.act ha (by simp only; rw [e]; exact .quiet))⟩
    have other : ∀ e : Runner.Event, (∀ q t, e ≠ .handleStart q t) → st'.trace = st0.trace ++ [e] →
        ∃ log, TReach dec basedir proc src book ⟨st', w', fun _ => false, log⟩ := by
      intro e h1 htr
      by_cases h2 : ∃ q t ok, e = .handleEnd q t ok
      · obtain ⟨q, t, ok, rfl⟩ := h2
        exact ⟨log, .act ht (.act ha (by simp only; rw [htr]; exact .handled q t ok rfl))⟩
      · exact ⟨log, .act ht (.act ha (by
          simp only; rw [htr]
          exact .other e h1 fun q t ok he => h2 ⟨q, t, ok, he⟩))⟩
    obtain ⟨st1, hst⟩ : ∃ st1, st' = st1 := ⟨_, rfl⟩
    have hs : Runner.Step (limits book) (jobs book) st0 st1 := hst ▸ hs
    cases hs with
    | routerSend q t hr htg =>
      have hrun : st'.tgt q = .running t := by rw [hst]; simp
      have h' := Reach.act h ha
      obtain ⟨task, hk, _⟩ := running_own hp h'.runner hrun
      have t1 : TReach dec basedir proc src book ⟨st', w', Function.update (fun _ => false) q true, log⟩ :=
        .act ht (.act ha (by simp only; rw [hst]; exact .received q t))
      refine ⟨log ++ if task.message = [] then [] else [(t, task.message)], ?_⟩
      have t2 := TReach.act t1 (TAct.say (q := q) hrun (by simp) hk)
      simpa [Function.update_idem] using t2
    | targetStart q => exact other (.started q) (by simp) (by rw [hst])
    | targetStartFail q => exact other (.startFailed q) (by simp) (by rw [hst])
    | handleEnd q t ok => exact other (.handleEnd q t ok) (by simp) (by rw [hst])
    | targetStop q => exact other (.stopped q) (by simp) (by rw [hst])
    | _ => exact quiet (by rw [hst])

/-- What a step adds to the trace. -/
theorem step_event {targets : GoMap Str Int} {tasks : GoMap Str Sched.Task} {st st' : Runner.St}
    (hs : Runner.Step targets tasks st st') :
    st'.trace = st.trace ∨ (∃ q t, st'.trace = st.trace ++ [.handleStart q t]) ∨
    (∃ q t ok, st.tgt q = .running t ∧ st'.trace = st.trace ++ [.handleEnd q t ok]) ∨
    ∃ e, (∀ q t, e ≠ .handleStart q t) ∧ (∀ q t ok, e ≠ .handleEnd q t ok) ∧ st'.trace = st.trace ++ [e] := by
  cases hs with
  | routerSend q t => exact .inr (.inl ⟨q, t, rfl⟩)
  | targetStart q => exact .inr (.inr (.inr ⟨.started q, by simp, by simp, rfl⟩))
  | targetStartFail q => exact .inr (.inr (.inr ⟨.startFailed q, by simp, by simp, rfl⟩))
  | handleEnd q t ok h => exact .inr (.inr (.inl ⟨q, t, ok, h, rfl⟩))
  | targetStop q => exact .inr (.inr (.inr ⟨.stopped q, by simp, by simp, rfl⟩))
  | _ => exact .inl rfl

/-- Where a run can go on, so it can with messages. -/
theorem TReach.live (hj : Json dec) (hw1 : src.targets.WF) (hw2 : src.tasks.WF)
    (h : TReach dec basedir proc src book s) {s' : Runner.St × World} (ha : Act proc book (s.st, s.w) s') :
    ∃ s'', TAct proc book s s'' := by
  have hp := parsed hj hw1 hw2 h.reach.parse
  obtain ⟨st', w'⟩ := s'
  have go : ∀ g', Hears s.greet s.st.trace st'.trace g' → ∃ s'', TAct proc book s s'' := fun g' hg => ⟨_, .act ha hg⟩
  rcases step_event ha.step with e | ⟨q, t, e⟩ | ⟨q, t, ok, hr, e⟩ | ⟨ev, h1, h2, e⟩
  · exact go _ (by rw [e]; exact .quiet)
  · exact go _ (by rw [e]; exact .received q t)
  · by_cases hg : s.greet q = true
    · obtain ⟨task, ht, _⟩ := running_own hp h.reach.runner hr
      exact ⟨_, .say hr hg ht⟩
    · exact go _ (by rw [e]; exact .handled q t ok (by simpa using hg))
  · exact go _ (by rw [e]; exact .other ev h1 h2)

end Verif.Run
