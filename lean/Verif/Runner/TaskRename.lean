import Verif.Runner.Rename
import Verif.Sched.TaskRename

/-!
# C164: the names of tasks matter to a run only through their order
-/

namespace Verif.Runner
open Verif Dag Sched

/-! ## Specification -/

/-- An event, with other names for the tasks. -/
def Event.retask (f : Str → Str) : Event → Event
  | .started q => .started q
  | .startFailed q => .startFailed q
  | .handleStart q t => .handleStart q (f t)
  | .handleEnd q t ok => .handleEnd q (f t) ok
  | .stopped q => .stopped q

/-- An error, with other names for the tasks. -/
def RunErr.retask (f : Str → Str) : RunErr → RunErr
  | .start q => .start q
  | .task t => .task (f t)

/-! ## The simulation -/

variable {f : Str ≃ Str} {targets targets' : GoMap Str Int} {tasks tasks' : GoMap Str Task} {st st' : St}

def taskPair (f : Str → Str) (p : Str × Str) : Str × Str := (p.1, f p.2)

def endPair (f : Str → Str) (p : Str × Bool) : Str × Bool := (f p.1, p.2)

def RouterPC.retask (f : Str → Str) : RouterPC → RouterPC
  | .hold q t => .hold q (f t)
  | .notStarted => .notStarted
  | .recv => .recv
  | .waitWg => .waitWg
  | .stopped => .stopped

def TgtPC.retask (f : Str → Str) : TgtPC → TgtPC
  | .running t => .running (f t)
  | .reporting t ok => .reporting (f t) ok
  | .notStarted => .notStarted
  | .idle => .idle
  | .stopping => .stopping
  | .stopped => .stopped

@[simp] theorem TgtPC.retask_idle (f : Str → Str) : TgtPC.idle.retask f = .idle := rfl
@[simp] theorem TgtPC.retask_stopping (f : Str → Str) : TgtPC.stopping.retask f = .stopping := rfl
@[simp] theorem TgtPC.retask_stopped (f : Str → Str) : TgtPC.stopped.retask f = .stopped := rfl
@[simp] theorem TgtPC.retask_running (f : Str → Str) (t : Str) : (TgtPC.running t).retask f = .running (f t) := rfl
@[simp] theorem TgtPC.retask_reporting (f : Str → Str) (t : Str) (ok : Bool) :
    (TgtPC.reporting t ok).retask f = .reporting (f t) ok := rfl

def MainPC.retask (f : Str → Str) : MainPC → MainPC
  | .starting rest => .starting rest
  | .failing q => .failing q
  | .loop1 => .loop1
  | .sendDone t => .sendDone (f t)
  | .loop2 e => .loop2 (e.map f)
  | .returned e => .returned (e.map (RunErr.retask f))

/-- A state with other names for the tasks. -/
def St.retask (f : Str → Str) (p : SchedPC) (o : List (Str × Str)) (st : St) : St :=
  { sched := p, ready := st.ready.map (taskPair f), router := st.router.retask f, tgt := fun q => (st.tgt q).retask f,
    ended := st.ended.map (endPair f), main := st.main.retask f, done := st.done.map f, doneClosed := st.doneClosed,
    out := o, completed := st.completed.map f, dropped := st.dropped.map f, trace := st.trace.map (Event.retask f) }

/-- Where the two scheduler goroutines are. -/
inductive TRel (f : Str → Str) (tasks tasks' : GoMap Str Task) : SchedPC → SchedPC → Prop
  | start : TRel f tasks tasks' .start .start
  | stopped : TRel f tasks tasks' .stopped .stopped
  | sending {s s' : Scheduler} (todo : List (Str × Str)) {rep rep' rel rel' : List Str} {o o' : List (Str × Str)}
      (h : Carried f tasks.keys s s') (hcl : Dag.Spec.Closed (depInput tasks)) (hi : SInv tasks s rep rel o)
      (hi' : SInv tasks' s' rep' rel' o') (hrep : ∀ m ∈ tasks.keys, f m ∈ rep' ↔ m ∈ rep) :
      TRel f tasks tasks' (.sending s todo) (.sending s' (todo.map (taskPair f)))

def taskMap (f : Str → Str) (r : GoMap Str (List Str)) : GoMap Str (List Str) := r.map (fun p => (p.1, p.2.map f))

theorem flat_task (f : Str → Str) (r : GoMap Str (List Str)) : flat (taskMap f r) = (flat r).map (taskPair f) := by
  unfold flat taskMap
  rw [List.flatMap_map, List.map_flatMap]
  refine List.flatMap_congr fun p _ => ?_
  rw [List.map_map, List.map_map]
  rfl

theorem task_perm {f : Str → Str} {r r2 r' : GoMap Str (List Str)} (w : r.WF) (w2 : r2.WF)
    (h : ∀ q, getQ r2 q = (getQ r q).map f) (hn : ∀ e ∈ r, e.2 ≠ []) (hn2 : ∀ e ∈ r2, e.2 ≠ []) (hp : r'.Perm r) :
    (taskMap f r').Perm r2 := by
  refine (hp.map _).trans (perm_of_getQ (r := taskMap f r) ?_ w2 ?_ ?_ hn2)
  · simpa [taskMap, GoMap.WF, GoMap.keys, Function.comp_def] using w
  · intro q
    rw [h]
    unfold getQ taskMap
    rw [GoMap.get?_map_val (fun _ (v : List Str) => v.map f)]
    cases GoMap.get? r q <;> rfl
  · intro e he
    obtain ⟨x, hx, rfl⟩ := List.mem_map.1 he
    simpa using hn x hx

theorem update_task (f : Str → Str) (tgt : Str → TgtPC) (q : Str) (v : TgtPC) :
    (fun x => (Function.update tgt q v x).retask f) = Function.update (fun x => (tgt x).retask f) q (v.retask f) := by
  funext x
  by_cases h : x = q
  · subst h; simp
  · simp [Function.update_of_ne h]

theorem _root_.Verif.Sched.TasksRenamed.symm (h : TasksRenamed f tasks tasks') : TasksRenamed f.symm tasks' tasks where
  ascending := by
    intro a ha b hb hlt
    obtain ⟨x, hx, rfl⟩ := List.mem_map.1 (h.keys.mem_iff.2 ha)
    obtain ⟨y, hy, rfl⟩ := List.mem_map.1 (h.keys.mem_iff.2 hb)
    simp only [Equiv.symm_apply_apply]
    refine lt_of_not_le fun hle => ?_
    by_cases e : x = y
    · subst e; exact ne_of_lt hlt rfl
    · have h1 : Str.lt y x = true := lt_of_not_le fun g => e (Str.le_antisymm g hle)
      have h2 := h.ascending y hy x hx h1
      exact ne_of_lt hlt (Str.le_antisymm (le_of_lt hlt) (le_of_lt h2))
  nameless := by
    intro a ha
    obtain ⟨x, hx, rfl⟩ := List.mem_map.1 (h.keys.mem_iff.2 ha)
    simp only [Equiv.symm_apply_apply]
    exact (h.nameless x hx).symm
  targets := by
    have := (h.targets.map (fun p : Str × Str => (f.symm p.1, p.2))).symm
    simpa [Function.comp_def] using this
  after := by
    intro n m
    constructor
    · intro e
      exact ⟨f n, f m, (h.after _ _).2 ⟨n, m, e, rfl, rfl⟩, by simp, by simp⟩
    · rintro ⟨n', m', e, rfl, rfl⟩
      obtain ⟨n, m, e0, rfl, rfl⟩ := (h.after _ _).1 e
      simpa using e0

theorem task_sim (wf : targets.WF) (wft : tasks.WF) (hq : targets.Perm targets') (hr : TasksRenamed f tasks tasks')
    (hs : Step targets tasks st st') (hk : ∀ c ∈ st.done, c ∈ tasks.keys) {p : SchedPC} (o : List (Str × Str))
    (hp : TRel f tasks tasks' st.sched p) :
    ∃ p' o', Step targets' tasks' (st.retask f p o) (st'.retask f p' o') ∧ TRel f tasks tasks' st'.sched p' := by
  have wft' : tasks'.WF := hr.wf wft
  have hcap : capacity targets' = capacity targets := by
    unfold capacity
    rw [(hq.map Prod.snd).sum_eq]
  cases hs with
  | schedNewErr e h hn =>
    rw [h] at hp
    cases hp
    have : ∃ e', new targets' tasks' = some (.error e') := by
      cases e1 : new targets' tasks' with
      | none => exact absurd e1 (new_ne_none wft')
      | some x =>
        cases x with
        | error e' => exact ⟨e', rfl⟩
        | ok x =>
          obtain ⟨y, hy⟩ := C163_made wft' hr.symm targets' targets ⟨x, e1⟩
          rw [hn] at hy
          cases hy
    obtain ⟨e', he'⟩ := this
    exact ⟨.stopped, o, .schedNewErr _ e' rfl he', .stopped⟩
  | schedNew s r r' h hn hperm =>
    rw [h] at hp
    cases hp
    obtain ⟨⟨s2, r2⟩, hn2⟩ := C163_made wft hr targets targets' ⟨_, hn⟩
    obtain ⟨a, b⟩ := Carried.new wf wft hq hr hn hn2
    obtain ⟨_, -, hcl, -, hi, hw, -, -⟩ := new_pres wft hn
    obtain ⟨_, -, -, -, hi', hw', -, -⟩ := new_pres wft' hn2
    refine ⟨.sending s2 ((flat r').map (taskPair f)), o ++ flat r2, ?_,
      .sending _ a hcl hi hi' (fun m hm => by simpa using hr.nameless m hm)⟩
    rw [← flat_task]
    exact .schedNew _ s2 r2 (taskMap f r') rfl hn2 (task_perm hw hw' b (new_nonempty hn) (new_nonempty hn2) hperm)
  | schedSend s x todo h hc =>
    rw [h] at hp
    cases hp with
    | @sending _ s2 _ _ _ _ _ _ _ a hcl hi hi' hrep =>
      refine ⟨.sending s2 (todo.map (taskPair f)), o, ?_, .sending _ a hcl hi hi' hrep⟩
      have := Step.schedSend (targets := targets') (tasks := tasks')
        (st.retask f (.sending s2 ((x :: todo).map (taskPair f))) o) s2 (taskPair f x) (todo.map (taskPair f)) rfl
        (by rw [hcap]; simpa [St.retask] using hc)
      simpa [St.retask] using this
  | schedNext s s1 c rest r r' h hd hn hperm =>
    rw [h] at hp
    cases hp with
    | @sending _ s2 _ _ _ _ _ _ _ a hcl hi hi' hrep =>
      have hkc := hk c (by rw [hd]; simp)
      obtain ⟨b1, b2, b3⟩ := a.next hr hcl hi hi' hrep hkc
      rw [hn] at b1 b2 b3
      cases e : s2.next (f c) with
      | mk s3 x =>
        rw [e] at b1 b2 b3
        cases x with
        | none => simp at b2
        | some r2 =>
          obtain ⟨q1, w1, -⟩ := next_pres hi c hn
          obtain ⟨q2, w2, -⟩ := next_pres hi' (f c) e
          refine ⟨.sending s3 ((flat r').map (taskPair f)), o ++ flat r2, ?_,
            .sending _ b1 hcl q1 q2 (rep_snoc hr hrep hkc)⟩
          rw [← flat_task]
          have := Step.schedNext (targets := targets') (tasks := tasks') (st.retask f (.sending s2 ([].map (taskPair f))) o)
            s2 s3 (f c) (rest.map f) r2 (taskMap f r') rfl (by simp [St.retask, hd]) e
            (task_perm w1 w2 (b3 r r2 rfl rfl) (next_nonempty hn) (next_nonempty e) hperm)
          simpa [St.retask] using this
  | schedRefused s s1 c rest h hd hn =>
    rw [h] at hp
    cases hp with
    | @sending _ s2 _ _ _ _ _ _ _ a hcl hi hi' hrep =>
      obtain ⟨b1, b2, b3⟩ := a.next hr hcl hi hi' hrep (hk c (by rw [hd]; simp))
      rw [hn] at b2
      cases e : s2.next (f c) with
      | mk s3 x =>
        rw [e] at b2
        have : x = none := b2.1 rfl
        subst this
        refine ⟨.stopped, o, ?_, .stopped⟩
        have := Step.schedRefused (targets := targets') (tasks := tasks') (st.retask f (.sending s2 ([].map (taskPair f))) o)
          s2 s3 (f c) (rest.map f) rfl (by simp [St.retask, hd]) e
        simpa [St.retask] using this
  | schedClosed s h hd hc =>
    rw [h] at hp
    cases hp with
    | @sending _ s2 _ _ _ _ _ _ _ a hcl hi hi' hrep =>
      exact ⟨.stopped, o, .schedClosed _ s2 rfl (by simp [St.retask, hd]) hc, .stopped⟩
  | targetStart q rest h =>
    refine ⟨p, o, ?_, hp⟩
    have := Step.targetStart (targets := targets') (tasks := tasks') (st.retask f p o) q rest
      (by simp [St.retask, h, MainPC.retask])
    simpa [St.retask, MainPC.retask, Event.retask, update_task] using this
  | targetStartFail q rest h =>
    refine ⟨p, o, ?_, hp⟩
    have := Step.targetStartFail (targets := targets') (tasks := tasks') (st.retask f p o) q rest
      (by simp [St.retask, h, MainPC.retask])
    simpa [St.retask, MainPC.retask, RouterPC.retask, Event.retask] using this
  | returnStartErr q h =>
    refine ⟨p, o, ?_, hp⟩
    have := Step.returnStartErr (targets := targets') (tasks := tasks') (st.retask f p o) q
      (by simp [St.retask, h, MainPC.retask])
    simpa [St.retask, MainPC.retask, RunErr.retask] using this
  | targetsStarted h =>
    refine ⟨p, o, ?_, hp⟩
    have := Step.targetsStarted (targets := targets') (tasks := tasks') (st.retask f p o)
      (by simp [St.retask, h, MainPC.retask])
    simpa [St.retask, MainPC.retask, RouterPC.retask] using this
  | routerRecv q t rest h hr' =>
    refine ⟨p, o, ?_, hp⟩
    have := Step.routerRecv (targets := targets') (tasks := tasks') (st.retask f p o) q (f t) (rest.map (taskPair f))
      (by simp [St.retask, h, RouterPC.retask]) (by simp [St.retask, hr', taskPair])
    simpa [St.retask, RouterPC.retask] using this
  | routerSend q t h ht' =>
    refine ⟨p, o, ?_, hp⟩
    have := Step.routerSend (targets := targets') (tasks := tasks') (st.retask f p o) q (f t)
      (by simp [St.retask, h, RouterPC.retask]) (by simp [St.retask, ht', TgtPC.retask])
    simpa [St.retask, RouterPC.retask, Event.retask, update_task] using this
  | routerClosed h hr' hs =>
    have hps : p = .stopped := by
      rw [hs] at hp; cases hp; rfl
    refine ⟨p, o, ?_, hp⟩
    have := Step.routerClosed (targets := targets') (tasks := tasks') (st.retask f p o)
      (by simp [St.retask, h, RouterPC.retask]) (by simp [St.retask, hr']) hps
    simpa [St.retask, RouterPC.retask] using this
  | routerDone h ht' =>
    refine ⟨p, o, ?_, hp⟩
    have := Step.routerDone (targets := targets') (tasks := tasks') (st.retask f p o)
      (by simp [St.retask, h, RouterPC.retask])
      (fun q => by rcases ht' q with e | e <;> simp [St.retask, e, TgtPC.retask])
    simpa [St.retask, RouterPC.retask] using this
  | handleEnd q t ok h =>
    refine ⟨p, o, ?_, hp⟩
    have := Step.handleEnd (targets := targets') (tasks := tasks') (st.retask f p o) q (f t) ok
      (by simp [St.retask, h, TgtPC.retask])
    simpa [St.retask, Event.retask, update_task] using this
  | report q t ok h hc =>
    refine ⟨p, o, ?_, hp⟩
    have := Step.report (targets := targets') (tasks := tasks') (st.retask f p o) q (f t) ok
      (by simp [St.retask, h, TgtPC.retask]) (by rw [hcap]; simpa [St.retask] using hc)
    have e2 : TgtPC.retask f (if ok = true then .idle else .stopping) = if ok = true then .idle else .stopping := by
      cases ok <;> rfl
    simpa [St.retask, update_task, e2, endPair] using this
  | targetClosed q h hr' =>
    refine ⟨p, o, ?_, hp⟩
    have := Step.targetClosed (targets := targets') (tasks := tasks') (st.retask f p o) q
      (by simp [St.retask, h, TgtPC.retask]) (by rcases hr' with e | e <;> simp [St.retask, e, RouterPC.retask])
    simpa [St.retask, update_task] using this
  | targetStop q h =>
    refine ⟨p, o, ?_, hp⟩
    have := Step.targetStop (targets := targets') (tasks := tasks') (st.retask f p o) q
      (by simp [St.retask, h, TgtPC.retask])
    simpa [St.retask, Event.retask, update_task] using this
  | mainOk t rest h he =>
    refine ⟨p, o, ?_, hp⟩
    have := Step.mainOk (targets := targets') (tasks := tasks') (st.retask f p o) (f t) (rest.map (endPair f))
      (by simp [St.retask, h, MainPC.retask]) (by simp [St.retask, he, endPair])
    simpa [St.retask, MainPC.retask] using this
  | mainSend t h hc =>
    refine ⟨p, o, ?_, hp⟩
    have := Step.mainSend (targets := targets') (tasks := tasks') (st.retask f p o) (f t)
      (by simp [St.retask, h, MainPC.retask]) (by rw [hcap]; simpa [St.retask] using hc)
    simpa [St.retask, MainPC.retask] using this
  | mainErr t rest h he =>
    refine ⟨p, o, ?_, hp⟩
    have := Step.mainErr (targets := targets') (tasks := tasks') (st.retask f p o) (f t) (rest.map (endPair f))
      (by simp [St.retask, h, MainPC.retask]) (by simp [St.retask, he, endPair])
    simpa [St.retask, MainPC.retask] using this
  | mainEnd1 h he hr' =>
    refine ⟨p, o, ?_, hp⟩
    have := Step.mainEnd1 (targets := targets') (tasks := tasks') (st.retask f p o)
      (by simp [St.retask, h, MainPC.retask]) (by simp [St.retask, he]) (by simp [St.retask, hr', RouterPC.retask])
    simpa [St.retask, MainPC.retask] using this
  | mainDrain e t ok rest h he =>
    refine ⟨p, o, ?_, hp⟩
    have := Step.mainDrain (targets := targets') (tasks := tasks') (st.retask f p o) (e.map f) (f t) ok
      (rest.map (endPair f)) (by simp [St.retask, h, MainPC.retask]) (by simp [St.retask, he, endPair])
    simpa [St.retask, MainPC.retask] using this
  | mainReturn e h he hr' =>
    refine ⟨p, o, ?_, hp⟩
    have := Step.mainReturn (targets := targets') (tasks := tasks') (st.retask f p o) (e.map f)
      (by simp [St.retask, h, MainPC.retask]) (by simp [St.retask, he]) (by simp [St.retask, hr', RouterPC.retask])
    have e2 : (e.map RunErr.task).map (RunErr.retask f) = (e.map f).map RunErr.task := by cases e <;> rfl
    simpa only [St.retask, MainPC.retask, e2] using this

theorem task_reach (wf : targets.WF) (wft : tasks.WF) (hq : targets.Perm targets') (hr : TasksRenamed f tasks tasks')
    (h : Reach targets tasks st) :
    ∃ p o, Reach targets' tasks' (st.retask f p o) ∧ TRel f tasks tasks' st.sched p := by
  induction h with
  | init order ho => exact ⟨.start, [], .init order (ho.trans (hq.map Prod.fst)), .start⟩
  | step h0 hs ih =>
    obtain ⟨p, o, hr', hp⟩ := ih
    obtain ⟨p', o', h1, h2⟩ := task_sim wf wft hq hr hs (h0.done_known wf wft) o hp
    exact ⟨p', o', hr'.step h1, h2⟩

theorem task_observed (wf : targets.WF) (wft : tasks.WF) (hq : targets.Perm targets') (hr : TasksRenamed f tasks tasks')
    {tr : List Event} {ret : Option (Option RunErr)} (h : Observed targets tasks tr ret) :
    Observed targets' tasks' (tr.map (Event.retask f)) (ret.map (Option.map (RunErr.retask f))) := by
  obtain ⟨st, h, h1, h2⟩ := h
  obtain ⟨p, o, hr', -⟩ := task_reach wf wft hq hr h
  refine ⟨_, hr', by simp [St.retask, h1], ?_⟩
  cases ret with
  | none =>
    intro e he
    simp only [St.retask] at he
    cases hm : st.main <;> rw [hm] at he <;> simp [MainPC.retask] at he
    exact h2 _ hm
  | some e =>
    simp only [Option.map_some, St.retask]
    rw [show st.main = .returned e from h2]
    rfl

theorem Event.retask_symm (f : Str ≃ Str) (e : Event) : (e.retask f).retask f.symm = e := by
  cases e <;> simp [Event.retask]

theorem RunErr.retask_symm (f : Str ≃ Str) (e : RunErr) : (e.retask f).retask f.symm = e := by
  cases e <;> simp [RunErr.retask]

/-- **C164.** The tasks of a runbook are given other names that are in the same alphabetical order, and a task without a
name stays without one.  Then a run of the one may do something, and return something, if and only if a run of the other may
do and return the same with the other names. -/
theorem C164_renamed_runs (wf : targets.WF) (wft : tasks.WF) (hq : targets.Perm targets')
    (hr : TasksRenamed f tasks tasks') (tr : List Event) (ret : Option (Option RunErr)) :
    Observed targets tasks tr ret ↔
      Observed targets' tasks' (tr.map (Event.retask f)) (ret.map (Option.map (RunErr.retask f))) := by
  refine ⟨task_observed wf wft hq hr, fun h => ?_⟩
  have := task_observed ((hq.map Prod.fst).nodup_iff.1 wf) (hr.wf wft) hq.symm hr.symm h
  simpa [Function.comp_def, Event.retask_symm, RunErr.retask_symm] using this

/-- C164 is about something: a runbook, one in which a task has another name, and a run. -/
example : TasksRenamed (Equiv.swap b!"b" b!"deploy") [(b!"a", ⟨b!"x", []⟩), (b!"b", ⟨b!"x", []⟩)]
      [(b!"deploy", ⟨b!"x", []⟩), (b!"a", ⟨b!"x", []⟩)] ∧
    Observed [(b!"x", 1)] [(b!"a", ⟨b!"x", []⟩), (b!"b", ⟨b!"x", []⟩)] [.started b!"x", .handleStart b!"x" b!"a"] none := by
  refine ⟨⟨by decide +kernel, by decide +kernel, by decide +kernel, fun t m => ?_⟩, ?_⟩
  · have key : ∀ (l : GoMap Str Task) (t m : Str), (∀ p ∈ l, p.2.after = []) → ¬ After l t m := by
      rintro l t m hl ⟨x, h1, h2⟩
      rw [hl _ (GoMap.mem_of_get? h1)] at h2
      cases h2
    exact ⟨fun h => absurd h (key _ _ _ (by decide +kernel)),
      fun ⟨_, _, h, _⟩ => absurd h (key _ _ _ (by decide +kernel))⟩
  · refine ⟨_, ((((((Reach.init [b!"x"] (.refl _)).step (.targetStart _ _ _ rfl)).step (.targetsStarted _ rfl)).step
      (.schedNew _ _ _ _ rfl rfl (.refl _))).step (.schedSend _ _ _ _ rfl (by decide +kernel))).step
      (.routerRecv _ _ _ _ rfl rfl)).step (.routerSend _ _ _ rfl rfl), rfl, by simp⟩

end Verif.Runner
