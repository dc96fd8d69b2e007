import Verif.Runner.Props
import Verif.Runner.SameBook
import Verif.Sched.Rename

/-!
# C161: the names of targets do not matter to a run
-/

namespace Verif.Runner
open Verif Dag Sched

/-! ## Specification -/

/-- An event, with other names for the targets. -/
def Event.rename (f : Str → Str) : Event → Event
  | .started q => .started (f q)
  | .startFailed q => .startFailed (f q)
  | .handleStart q t => .handleStart (f q) t
  | .handleEnd q t ok => .handleEnd (f q) t ok
  | .stopped q => .stopped (f q)

/-- An error, with other names for the targets. -/
def RunErr.rename (f : Str → Str) : RunErr → RunErr
  | .start q => .start (f q)
  | .task t => .task t

/-! ## The simulation -/

variable {f : Str ≃ Str} {targets targets' : GoMap Str Int} {tasks tasks' : GoMap Str Task} {st st' : St}

def renPair (f : Str → Str) (p : Str × Str) : Str × Str := (f p.1, p.2)

def RouterPC.rename (f : Str → Str) : RouterPC → RouterPC
  | .hold q t => .hold (f q) t
  | .notStarted => .notStarted
  | .recv => .recv
  | .waitWg => .waitWg
  | .stopped => .stopped

def MainPC.rename (f : Str → Str) : MainPC → MainPC
  | .starting rest => .starting (rest.map f)
  | .failing q => .failing (f q)
  | .loop1 => .loop1
  | .sendDone t => .sendDone t
  | .loop2 e => .loop2 e
  | .returned e => .returned (e.map (RunErr.rename f))

/-- A state with other names for the targets. -/
def St.rename (f : Str ≃ Str) (p : SchedPC) (o : List (Str × Str)) (st : St) : St :=
  { sched := p, ready := st.ready.map (renPair f), router := st.router.rename f, tgt := st.tgt ∘ f.symm,
    ended := st.ended, main := st.main.rename f, done := st.done, doneClosed := st.doneClosed, out := o,
    completed := st.completed, dropped := st.dropped, trace := st.trace.map (Event.rename f) }

/-- Where the two scheduler goroutines are. -/
inductive RRel (f : Str → Str) (tasks tasks' : GoMap Str Task) : SchedPC → SchedPC → Prop
  | start : RRel f tasks tasks' .start .start
  | stopped : RRel f tasks tasks' .stopped .stopped
  | sending {s s' : Scheduler} (todo : List (Str × Str)) {rep rel rel' : List Str} {o o' : List (Str × Str)}
      (h : Moved f tasks.keys s s') (hi : SInv tasks s rep rel o) (hi' : SInv tasks' s' rep rel' o') :
      RRel f tasks tasks' (.sending s todo) (.sending s' (todo.map (renPair f)))

def renMap (f : Str → Str) (r : GoMap Str (List Str)) : GoMap Str (List Str) := r.map (fun p => (f p.1, p.2))

theorem flat_ren (f : Str → Str) (r : GoMap Str (List Str)) : flat (renMap f r) = (flat r).map (renPair f) := by
  unfold flat renMap
  rw [List.flatMap_map, List.map_flatMap]
  refine List.flatMap_congr fun p _ => ?_
  rw [List.map_map]
  rfl

theorem ren_perm {r r2 r' : GoMap Str (List Str)} (w : r.WF) (w2 : r2.WF) (h : ∀ q, getQ r2 (f q) = getQ r q)
    (hn : ∀ e ∈ r, e.2 ≠ []) (hn2 : ∀ e ∈ r2, e.2 ≠ []) (hp : r'.Perm r) : (renMap f r').Perm r2 := by
  refine (hp.map _).trans (perm_of_getQ (r := renMap f r) ?_ w2 ?_ ?_ hn2)
  · have : (r.keys.map f).Nodup := w.map f.injective
    simpa [renMap, GoMap.WF, GoMap.keys, Function.comp_def] using this
  · intro q
    obtain ⟨q, rfl⟩ := f.surjective q
    rw [h]
    unfold getQ renMap
    rw [get?_rename f.injective]
  · intro e he
    obtain ⟨x, hx, rfl⟩ := List.mem_map.1 he
    exact hn x hx

theorem update_ren (tgt : Str → TgtPC) (q : Str) (v : TgtPC) :
    Function.update tgt q v ∘ f.symm = Function.update (tgt ∘ f.symm) (f q) v := by
  funext x
  obtain ⟨y, rfl⟩ := f.surjective x
  by_cases h : y = q
  · subst h; simp
  · simp [Function.update_of_ne h, Function.update_of_ne (f.injective.ne h)]

theorem ren_sim (wf : targets.WF) (wft : tasks.WF) (hr : Renamed f targets targets' tasks tasks')
    (hs : Step targets tasks st st') (hk : ∀ c ∈ st.done, c ∈ tasks.keys) {p : SchedPC} (o : List (Str × Str))
    (hp : RRel f tasks tasks' st.sched p) :
    ∃ p' o', Step targets' tasks' (st.rename f p o) (st'.rename f p' o') ∧ RRel f tasks tasks' st'.sched p' := by
  have wft' : tasks'.WF := hr.keys.nodup_iff.1 wft
  have hcap : capacity targets' = capacity targets := by
    unfold capacity
    rw [← (hr.limits.map Prod.snd).sum_eq, List.map_map]
    rfl
  cases hs with
  | schedNewErr e h hn =>
    rw [h] at hp
    cases hp
    have : ∃ e', new targets' tasks' = some (.error e') := by
      cases e1 : new targets' tasks' with
      | none => exact absurd e1 (new_ne_none wft')
      | some x =>
        cases x with
        | error e' => exact ⟨e', rfl⟩
        | ok x =>
          obtain ⟨y, hy⟩ := (C157_made wft hr).2 ⟨x, e1⟩
          rw [hn] at hy
          cases hy
    obtain ⟨e', he'⟩ := this
    exact ⟨.stopped, o, .schedNewErr _ e' rfl he', .stopped⟩
  | schedNew s r r' h hn hperm =>
    rw [h] at hp
    cases hp
    obtain ⟨⟨s2, r2⟩, hn2⟩ := (C157_made wft hr).1 ⟨_, hn⟩
    obtain ⟨a, b⟩ := Moved.new wf wft hr hn hn2
    obtain ⟨_, -, -, -, hi, hw, -, -⟩ := new_pres wft hn
    obtain ⟨_, -, -, -, hi', hw', -, -⟩ := new_pres wft' hn2
    refine ⟨.sending s2 ((flat r').map (renPair f)), o ++ flat r2, ?_, .sending _ a hi hi'⟩
    rw [← flat_ren]
    exact .schedNew _ s2 r2 (renMap f r') rfl hn2 (ren_perm hw hw' b (new_nonempty hn) (new_nonempty hn2) hperm)
  | schedSend s x todo h hc =>
    rw [h] at hp
    cases hp with
    | @sending _ s2 _ _ _ _ _ _ a hi hi' =>
      refine ⟨.sending s2 (todo.map (renPair f)), o, ?_, .sending _ a hi hi'⟩
      have := Step.schedSend (targets := targets') (tasks := tasks')
        (st.rename f (.sending s2 ((x :: todo).map (renPair f))) o) s2 (renPair f x) (todo.map (renPair f)) rfl
        (by rw [hcap]; simpa [St.rename] using hc)
      simpa [St.rename] using this
  | schedNext s s1 c rest r r' h hd hn hperm =>
    rw [h] at hp
    cases hp with
    | @sending _ s2 _ _ _ _ _ _ a hi hi' =>
      obtain ⟨b1, b2, b3⟩ := a.next hr.inj hr.edge hi hi' (hk c (by rw [hd]; simp))
      rw [hn] at b1 b2 b3
      cases e : s2.next c with
      | mk s3 x =>
        rw [e] at b1 b2 b3
        cases x with
        | none => simp at b2
        | some r2 =>
          obtain ⟨q1, w1, -⟩ := next_pres hi c hn
          obtain ⟨q2, w2, -⟩ := next_pres hi' c e
          refine ⟨.sending s3 ((flat r').map (renPair f)), o ++ flat r2, ?_, .sending _ b1 q1 q2⟩
          rw [← flat_ren]
          exact .schedNext _ s2 s3 c rest r2 (renMap f r') rfl hd e
            (ren_perm w1 w2 (b3 r r2 rfl rfl) (next_nonempty hn) (next_nonempty e) hperm)
  | schedRefused s s1 c rest h hd hn =>
    rw [h] at hp
    cases hp with
    | @sending _ s2 _ _ _ _ _ _ a hi hi' =>
      obtain ⟨b1, b2, b3⟩ := a.next hr.inj hr.edge hi hi' (hk c (by rw [hd]; simp))
      rw [hn] at b2
      cases e : s2.next c with
      | mk s3 x =>
        rw [e] at b2
        have : x = none := b2.1 rfl
        subst this
        exact ⟨.stopped, o, .schedRefused _ s2 s3 c rest rfl hd e, .stopped⟩
  | schedClosed s h hd hc =>
    rw [h] at hp
    cases hp with
    | @sending _ s2 _ _ _ _ _ _ a hi hi' => exact ⟨.stopped, o, .schedClosed _ s2 rfl hd hc, .stopped⟩
  | targetStart q rest h =>
    refine ⟨p, o, ?_, hp⟩
    have := Step.targetStart (targets := targets') (tasks := tasks') (st.rename f p o) (f q) (rest.map f)
      (by simp [St.rename, h, MainPC.rename])
    simpa [St.rename, MainPC.rename, Event.rename, update_ren] using this
  | targetStartFail q rest h =>
    refine ⟨p, o, ?_, hp⟩
    have := Step.targetStartFail (targets := targets') (tasks := tasks') (st.rename f p o) (f q) (rest.map f)
      (by simp [St.rename, h, MainPC.rename])
    simpa [St.rename, MainPC.rename, RouterPC.rename, Event.rename, update_ren] using this
  | returnStartErr q h =>
    refine ⟨p, o, ?_, hp⟩
    have := Step.returnStartErr (targets := targets') (tasks := tasks') (st.rename f p o) (f q)
      (by simp [St.rename, h, MainPC.rename])
    simpa [St.rename, MainPC.rename, RunErr.rename] using this
  | targetsStarted h =>
    refine ⟨p, o, ?_, hp⟩
    have := Step.targetsStarted (targets := targets') (tasks := tasks') (st.rename f p o)
      (by simp [St.rename, h, MainPC.rename])
    simpa [St.rename, MainPC.rename, RouterPC.rename] using this
  | routerRecv q t rest h hr' =>
    refine ⟨p, o, ?_, hp⟩
    have := Step.routerRecv (targets := targets') (tasks := tasks') (st.rename f p o) (f q) t (rest.map (renPair f))
      (by simp [St.rename, h, RouterPC.rename]) (by simp [St.rename, hr', renPair])
    simpa [St.rename, RouterPC.rename] using this
  | routerSend q t h ht' =>
    refine ⟨p, o, ?_, hp⟩
    have := Step.routerSend (targets := targets') (tasks := tasks') (st.rename f p o) (f q) t
      (by simp [St.rename, h, RouterPC.rename]) (by simpa [St.rename] using ht')
    simpa [St.rename, RouterPC.rename, Event.rename, update_ren] using this
  | routerClosed h hr' hs =>
    have hps : p = .stopped := by
      rw [hs] at hp; cases hp; rfl
    refine ⟨p, o, ?_, hp⟩
    have := Step.routerClosed (targets := targets') (tasks := tasks') (st.rename f p o)
      (by simp [St.rename, h, RouterPC.rename]) (by simp [St.rename, hr']) hps
    simpa [St.rename, RouterPC.rename] using this
  | routerDone h ht' =>
    refine ⟨p, o, ?_, hp⟩
    have := Step.routerDone (targets := targets') (tasks := tasks') (st.rename f p o)
      (by simp [St.rename, h, RouterPC.rename]) (fun q => ht' (f.symm q))
    simpa [St.rename, RouterPC.rename] using this
  | handleEnd q t ok h =>
    refine ⟨p, o, ?_, hp⟩
    have := Step.handleEnd (targets := targets') (tasks := tasks') (st.rename f p o) (f q) t ok
      (by simpa [St.rename] using h)
    simpa [St.rename, Event.rename, update_ren] using this
  | report q t ok h hc =>
    refine ⟨p, o, ?_, hp⟩
    have := Step.report (targets := targets') (tasks := tasks') (st.rename f p o) (f q) t ok
      (by simpa [St.rename] using h) (by rw [hcap]; exact hc)
    simpa [St.rename, update_ren] using this
  | targetClosed q h hr' =>
    refine ⟨p, o, ?_, hp⟩
    have := Step.targetClosed (targets := targets') (tasks := tasks') (st.rename f p o) (f q)
      (by simpa [St.rename] using h) (by rcases hr' with e | e <;> simp [St.rename, e, RouterPC.rename])
    simpa [St.rename, update_ren] using this
  | targetStop q h =>
    refine ⟨p, o, ?_, hp⟩
    have := Step.targetStop (targets := targets') (tasks := tasks') (st.rename f p o) (f q)
      (by simpa [St.rename] using h)
    simpa [St.rename, Event.rename, update_ren] using this
  | mainOk t rest h he =>
    refine ⟨p, o, ?_, hp⟩
    have := Step.mainOk (targets := targets') (tasks := tasks') (st.rename f p o) t rest
      (by simp [St.rename, h, MainPC.rename]) he
    simpa [St.rename, MainPC.rename] using this
  | mainSend t h hc =>
    refine ⟨p, o, ?_, hp⟩
    have := Step.mainSend (targets := targets') (tasks := tasks') (st.rename f p o) t
      (by simp [St.rename, h, MainPC.rename]) (by rw [hcap]; exact hc)
    simpa [St.rename, MainPC.rename] using this
  | mainErr t rest h he =>
    refine ⟨p, o, ?_, hp⟩
    have := Step.mainErr (targets := targets') (tasks := tasks') (st.rename f p o) t rest
      (by simp [St.rename, h, MainPC.rename]) he
    simpa [St.rename, MainPC.rename] using this
  | mainEnd1 h he hr' =>
    refine ⟨p, o, ?_, hp⟩
    have := Step.mainEnd1 (targets := targets') (tasks := tasks') (st.rename f p o)
      (by simp [St.rename, h, MainPC.rename]) he (by simp [St.rename, hr', RouterPC.rename])
    simpa [St.rename, MainPC.rename] using this
  | mainDrain e t ok rest h he =>
    refine ⟨p, o, ?_, hp⟩
    have := Step.mainDrain (targets := targets') (tasks := tasks') (st.rename f p o) e t ok rest
      (by simp [St.rename, h, MainPC.rename]) he
    simpa [St.rename, MainPC.rename] using this
  | mainReturn e h he hr' =>
    refine ⟨p, o, ?_, hp⟩
    have := Step.mainReturn (targets := targets') (tasks := tasks') (st.rename f p o) e
      (by simp [St.rename, h, MainPC.rename]) he (by simp [St.rename, hr', RouterPC.rename])
    have e2 : (e.map RunErr.task).map (RunErr.rename f) = e.map RunErr.task := by cases e <;> rfl
    simpa [St.rename, MainPC.rename, e2] using this

/-- What main has been told of are tasks of the runbook. -/
theorem Reach.done_known (wf : targets.WF) (wft : tasks.WF) (h : Reach targets tasks st) :
    ∀ c ∈ st.done, c ∈ tasks.keys := by
  intro c hc
  obtain ⟨-, hf⟩ := h.inv wf wft
  obtain ⟨q, he⟩ := hf.okTr c (.inr (.inl hc))
  have ho := hf.runOut _ _ (hf.endTr _ _ _ he)
  rcases hf.protocol with e | ⟨s, hp⟩
  · rw [e] at ho; cases ho
  · obtain ⟨_, rel, hi, -⟩ := hp.history.inv wft
    rw [← keys_depInput]
    exact hi.dep.part.mem_iff.1 (List.mem_append_left _ (hi.mem_out ho).1)

theorem ren_reach (wf : targets.WF) (wft : tasks.WF) (hr : Renamed f targets targets' tasks tasks')
    (h : Reach targets tasks st) :
    ∃ p o, Reach targets' tasks' (st.rename f p o) ∧ RRel f tasks tasks' st.sched p := by
  induction h with
  | init order ho =>
    refine ⟨.start, [], ?_, .start⟩
    have hk : (order.map f).Perm targets'.keys := by
      have := hr.limits.map Prod.fst
      rw [List.map_map] at this
      refine (ho.map f).trans (List.Perm.trans ?_ this)
      unfold GoMap.keys
      rw [List.map_map]
      exact .refl _
    exact .init _ hk
  | step h0 hs ih =>
    obtain ⟨p, o, hr', hp⟩ := ih
    obtain ⟨p', o', h1, h2⟩ := ren_sim wf wft hr hs (h0.done_known wf wft) o hp
    exact ⟨p', o', hr'.step h1, h2⟩

theorem ren_observed (wf : targets.WF) (wft : tasks.WF) (hr : Renamed f targets targets' tasks tasks')
    {tr : List Event} {ret : Option (Option RunErr)} (h : Observed targets tasks tr ret) :
    Observed targets' tasks' (tr.map (Event.rename f)) (ret.map (Option.map (RunErr.rename f))) := by
  obtain ⟨st, h, h1, h2⟩ := h
  obtain ⟨p, o, hr', -⟩ := ren_reach wf wft hr h
  refine ⟨_, hr', by simp [St.rename, h1], ?_⟩
  cases ret with
  | none =>
    intro e he
    simp only [St.rename] at he
    cases hm : st.main <;> rw [hm] at he <;> simp [MainPC.rename] at he
    exact h2 _ hm
  | some e =>
    simp only [Option.map_some, St.rename]
    rw [show st.main = .returned e from h2]
    rfl

theorem Event.rename_symm (f : Str ≃ Str) (e : Event) : (e.rename f).rename f.symm = e := by
  cases e <;> simp [Event.rename]

theorem RunErr.rename_symm (f : Str ≃ Str) (e : RunErr) : (e.rename f).rename f.symm = e := by
  cases e <;> simp [RunErr.rename]

theorem _root_.Verif.Sched.Renamed.symm (h : Renamed f targets targets' tasks tasks') :
    Renamed f.symm targets' targets tasks' tasks where
  inj := f.symm.injective
  limits := by
    have := (h.limits.map (fun p : Str × Int => (f.symm p.1, p.2))).symm
    simpa [Function.comp_def] using this
  targets := by
    have := (h.targets.map (fun p : Str × Str => (p.1, f.symm p.2))).symm
    simpa [Function.comp_def] using this
  after := fun t m => (h.after t m).symm

/-- **C161.** The targets of a runbook are given other names, no two the same.  Then a run of the one may do something, and
return something, if and only if a run of the other may do and return the same with the other names. -/
theorem C161_renamed_runs (wf : targets.WF) (wft : tasks.WF) (hr : Renamed f targets targets' tasks tasks')
    (tr : List Event) (ret : Option (Option RunErr)) :
    Observed targets tasks tr ret ↔
      Observed targets' tasks' (tr.map (Event.rename f)) (ret.map (Option.map (RunErr.rename f))) := by
  refine ⟨ren_observed wf wft hr, fun h => ?_⟩
  have wf' : targets'.WF := by
    have h1 := (hr.limits.map Prod.fst).nodup_iff.1 (by
      have : (targets.keys.map f).Nodup := wf.map f.injective
      simpa [GoMap.keys, Function.comp_def] using this)
    exact h1
  have wft' : tasks'.WF := hr.keys.nodup_iff.1 wft
  have := ren_observed wf' wft' hr.symm h
  simpa [Function.comp_def, Event.rename_symm, RunErr.rename_symm] using this

/-- C161 is about something: a runbook, one in which two targets have each other's names, and a run. -/
example : Renamed (Equiv.swap b!"x" b!"") [(b!"x", 1), (b!"", 2)] [(b!"x", 2), (b!"", 1)]
      [(b!"a", ⟨b!"x", []⟩), (b!"b", ⟨b!"", []⟩)] [(b!"b", ⟨b!"x", []⟩), (b!"a", ⟨b!"", []⟩)] ∧
    Observed [(b!"x", 1), (b!"", 2)] [(b!"a", ⟨b!"x", []⟩), (b!"b", ⟨b!"", []⟩)]
      [.started b!"x", .started b!"", .handleStart b!"x" b!"a"] none := by
  refine ⟨⟨(Equiv.swap b!"x" b!"").injective, by decide +kernel, by decide +kernel, fun t m => ?_⟩, ?_⟩
  · have key : ∀ (l : GoMap Str Task), (∀ p ∈ l, p.2.after = []) → ¬ After l t m := by
      rintro l hl ⟨x, h1, h2⟩
      rw [hl _ (GoMap.mem_of_get? h1)] at h2
      cases h2
    exact ⟨fun h => absurd h (key _ (by decide +kernel)), fun h => absurd h (key _ (by decide +kernel))⟩
  · refine ⟨_, (((((((Reach.init [b!"x", b!""] (.refl _)).step (.targetStart _ _ _ rfl)).step (.targetStart _ _ _ rfl)).step
      (.targetsStarted _ rfl)).step (.schedNew _ _ _ _ rfl rfl (.refl _))).step
      (.schedSend _ _ _ _ rfl (by decide +kernel))).step (.routerRecv _ _ _ _ rfl rfl)).step (.routerSend _ _ _ rfl rfl),
      rfl, by simp⟩

end Verif.Runner
