import Verif.Runner.Model
import Verif.Sched.Same

/-!
# C160: runbooks that say the same have the same runs
-/

namespace Verif.Runner
open Verif Dag Sched

variable {targets targets' : GoMap Str Int} {tasks tasks' : GoMap Str Task} {st st' : St}

/-! ## What two schedulers that are alike hand out is the same map -/

theorem buildReadyLoop_nonempty (cap : GoMap Str Int) (pend : List (Str × List Str)) (len : GoMap Str Int) :
    ∀ e ∈ (buildReadyLoop cap pend len).2.2, e.2 ≠ [] := by
  induction pend generalizing len with
  | nil => simp [buildReadyLoop]
  | cons a rest ih =>
    obtain ⟨qid, ts⟩ := a
    simp only [buildReadyLoop]
    by_cases h1 : ts.length < 1
    · simp only [h1, if_true]; exact ih len
    · simp only [h1, if_false]
      by_cases h2 : getInt cap qid - getInt len qid < 1
      · simp only [h2, if_true]; exact ih len
      · simp only [h2, if_false]
        intro e he
        rcases List.mem_cons.1 he with rfl | he
        · simp only [ne_eq, List.take_eq_nil_iff, not_or]
          refine ⟨?_, by rintro rfl; simp at h1⟩
          split <;> omega
        · exact ih _ e he

theorem perm_of_getQ {r r' : GoMap Str (List Str)} (w : r.WF) (w' : r'.WF) (h : ∀ q, getQ r q = getQ r' q)
    (hn : ∀ e ∈ r, e.2 ≠ []) (hn' : ∀ e ∈ r', e.2 ≠ []) : r.Perm r' := by
  have nd : ∀ {m : GoMap Str (List Str)}, m.WF → m.Nodup := fun hm => List.Nodup.of_map _ hm
  have key : ∀ {m : GoMap Str (List Str)}, m.WF → (∀ e ∈ m, e.2 ≠ []) →
      ∀ e : Str × List Str, e ∈ m ↔ e.2 ≠ [] ∧ getQ m e.1 = e.2 := by
    intro m wm hm e
    constructor
    · intro he
      refine ⟨hm e he, ?_⟩
      unfold getQ
      rw [GoMap.get?_of_mem wm (k := e.1) (v := e.2) he]; rfl
    · rintro ⟨h1, h2⟩
      unfold getQ at h2
      cases hg : GoMap.get? m e.1 with
      | none => rw [hg] at h2; exact absurd h2.symm h1
      | some v =>
        rw [hg] at h2
        simp only [Option.getD_some] at h2
        subst h2
        exact GoMap.mem_of_get? hg
  refine (List.perm_ext_iff_of_nodup (nd w) (nd w')).2 fun e => ?_
  rw [key w hn, key w' hn', h]

theorem new_nonempty {s : Scheduler} {r : GoMap Str (List Str)} (h : new targets tasks = some (.ok (s, r))) :
    ∀ e ∈ r, e.2 ≠ [] := by
  unfold new at h
  cases e : newDependencyGraph (tasks.map (fun p => (p.1, p.2.after))) with
  | none => rw [e] at h; simp at h
  | some x =>
    cases x with
    | error _ => rw [e] at h; simp at h
    | ok g =>
      rw [e] at h
      simp only [Option.some.injEq, Except.ok.injEq, Prod.ext_iff] at h
      rw [← h.2]
      exact buildReadyLoop_nonempty _ _ _

theorem next_nonempty {s s' : Scheduler} {c : Str} {r : GoMap Str (List Str)} (h : s.next c = (s', some r)) :
    ∀ e ∈ r, e.2 ≠ [] := by
  unfold Scheduler.next at h
  split at h
  · simp at h
  · simp only [Prod.mk.injEq, Option.some.injEq] at h
    rw [← h.2]
    exact buildReadyLoop_nonempty _ _ _

/-! ## The simulation -/

/-- Where the two scheduler goroutines are. -/
inductive SRel (tasks tasks' : GoMap Str Task) : SchedPC → SchedPC → Prop
  | start : SRel tasks tasks' .start .start
  | stopped : SRel tasks tasks' .stopped .stopped
  | sending {s s' : Scheduler} (todo : List (Str × Str)) {rep rel rel' : List Str} {o o' : List (Str × Str)}
      (h : Alike s s') (hi : SInv tasks s rep rel o) (hi' : SInv tasks' s' rep rel' o') :
      SRel tasks tasks' (.sending s todo) (.sending s' todo)

theorem SRel.symm {p p' : SchedPC} (h : SRel tasks tasks' p p') : SRel tasks' tasks p' p := by
  cases h with
  | start => exact .start
  | stopped => exact .stopped
  | sending todo a hi hi' =>
    exact .sending todo ⟨a.deps.symm, fun t => (a.target t).symm, fun q => (a.queue q).symm, fun q => (a.cap q).symm,
      fun q => (a.len q).symm⟩ hi' hi

theorem new_ne_none (wft : tasks.WF) : new targets tasks ≠ none := by
  have h := (C07_newDependencyGraph_exact (depInput tasks) (depInput_wf wft)).1
  unfold new
  cases e : newDependencyGraph (tasks.map (fun p => (p.1, p.2.after))) with
  | none => exact absurd e h
  | some x => cases x <;> simp

theorem step_sim (wf : targets.WF) (wft : tasks.WF) (hq : targets.Perm targets') (ht : SameTasks tasks tasks')
    (hs : Step targets tasks st st') {p : SchedPC} (o : List (Str × Str)) (hr : SRel tasks tasks' st.sched p) :
    ∃ p' o', Step targets' tasks' { st with sched := p, out := o } { st' with sched := p', out := o' } ∧
      SRel tasks tasks' st'.sched p' := by
  have wft' : tasks'.WF := ht.wf wft
  have hcap : capacity targets' = capacity targets := by
    unfold capacity
    rw [(hq.map Prod.snd).sum_eq]
  cases hs with
  | schedNewErr e h hn =>
    rw [h] at hr
    cases hr
    have : ∃ e', new targets' tasks' = some (.error e') := by
      cases e1 : new targets' tasks' with
      | none => exact absurd e1 (new_ne_none wft')
      | some x =>
        cases x with
        | error e' => exact ⟨e', rfl⟩
        | ok x =>
          obtain ⟨y, hy⟩ := (C156_made wft ht targets targets').2 ⟨x, e1⟩
          rw [hn] at hy
          cases hy
    obtain ⟨e', he'⟩ := this
    exact ⟨.stopped, o, .schedNewErr _ e' rfl he', .stopped⟩
  | schedNew s r r' h hn hp =>
    rw [h] at hr
    cases hr
    obtain ⟨⟨s2, r2⟩, hn2⟩ := (C156_made wft ht targets targets').1 ⟨_, hn⟩
    obtain ⟨a, b⟩ := Alike.new wf wft hq ht hn hn2
    obtain ⟨_, -, -, -, hi, hw, -, -⟩ := new_pres wft hn
    obtain ⟨_, -, -, -, hi', hw', -, -⟩ := new_pres wft' hn2
    exact ⟨.sending s2 (flat r'), _, .schedNew _ s2 r2 r' rfl hn2
      (hp.trans (perm_of_getQ hw hw' b (new_nonempty hn) (new_nonempty hn2))), .sending _ a hi hi'⟩
  | schedSend s x todo h hc =>
    rw [h] at hr
    cases hr with
    | sending _ a hi hi' =>
      exact ⟨.sending _ todo, o, .schedSend _ _ x todo rfl (by rw [hcap]; exact hc), .sending _ a hi hi'⟩
  | schedNext s s1 c rest r r' h hd hn hp =>
    rw [h] at hr
    cases hr with
    | @sending _ s2 _ _ _ _ _ _ a hi hi' =>
      obtain ⟨b1, b2, b3⟩ := a.next ht.edge hi hi' c
      rw [hn] at b1 b2 b3
      cases e : s2.next c with
      | mk s3 x =>
        rw [e] at b1 b2 b3
        cases x with
        | none => simp at b2
        | some r2 =>
          obtain ⟨q1, w1, -⟩ := next_pres hi c hn
          obtain ⟨q2, w2, -⟩ := next_pres hi' c e
          exact ⟨.sending s3 (flat r'), _, .schedNext _ s2 s3 c rest r2 r' rfl hd e
            (hp.trans (perm_of_getQ w1 w2 (b3 r r2 rfl rfl) (next_nonempty hn) (next_nonempty e))), .sending _ b1 q1 q2⟩
  | schedRefused s s1 c rest h hd hn =>
    rw [h] at hr
    cases hr with
    | @sending _ s2 _ _ _ _ _ _ a hi hi' =>
      obtain ⟨b1, b2, b3⟩ := a.next ht.edge hi hi' c
      rw [hn] at b2
      cases e : s2.next c with
      | mk s3 x =>
        rw [e] at b2
        have : x = none := b2.1 rfl
        subst this
        exact ⟨.stopped, o, .schedRefused _ s2 s3 c rest rfl hd e, .stopped⟩
  | schedClosed s h hd hc =>
    rw [h] at hr
    cases hr with
    | @sending _ s2 _ _ _ _ _ _ a hi hi' => exact ⟨.stopped, o, .schedClosed _ s2 rfl hd hc, .stopped⟩
  | targetStart q rest h => exact ⟨p, o, .targetStart _ q rest h, hr⟩
  | targetStartFail q rest h => exact ⟨p, o, .targetStartFail _ q rest h, hr⟩
  | returnStartErr q h => exact ⟨p, o, .returnStartErr _ q h, hr⟩
  | targetsStarted h => exact ⟨p, o, .targetsStarted _ h, hr⟩
  | routerRecv q t rest h hr' => exact ⟨p, o, .routerRecv _ q t rest h hr', hr⟩
  | routerSend q t h ht' => exact ⟨p, o, .routerSend _ q t h ht', hr⟩
  | routerClosed h hr' hs =>
    have hps : p = .stopped := by
      rw [hs] at hr; cases hr; rfl
    exact ⟨p, o, .routerClosed _ h hr' hps, hr⟩
  | routerDone h ht' => exact ⟨p, o, .routerDone _ h ht', hr⟩
  | handleEnd q t ok h => exact ⟨p, o, .handleEnd _ q t ok h, hr⟩
  | report q t ok h hc => exact ⟨p, o, .report _ q t ok h (by rw [hcap]; exact hc), hr⟩
  | targetClosed q h hr' => exact ⟨p, o, .targetClosed _ q h hr', hr⟩
  | targetStop q h => exact ⟨p, o, .targetStop _ q h, hr⟩
  | mainOk t rest h he => exact ⟨p, o, .mainOk _ t rest h he, hr⟩
  | mainSend t h hc => exact ⟨p, o, .mainSend _ t h (by rw [hcap]; exact hc), hr⟩
  | mainErr t rest h he => exact ⟨p, o, .mainErr _ t rest h he, hr⟩
  | mainEnd1 h he hr' => exact ⟨p, o, .mainEnd1 _ h he hr', hr⟩
  | mainDrain e t ok rest h he => exact ⟨p, o, .mainDrain _ e t ok rest h he, hr⟩
  | mainReturn e h he hr' => exact ⟨p, o, .mainReturn _ e h he hr', hr⟩

theorem reach_sim (wf : targets.WF) (wft : tasks.WF) (hq : targets.Perm targets') (ht : SameTasks tasks tasks')
    (h : Reach targets tasks st) :
    ∃ p o, Reach targets' tasks' { st with sched := p, out := o } ∧ SRel tasks tasks' st.sched p := by
  induction h with
  | init order ho => exact ⟨.start, [], .init order (ho.trans (hq.map Prod.fst)), .start⟩
  | step _ hs ih =>
    obtain ⟨p, o, hr, hp⟩ := ih
    obtain ⟨p', o', h1, h2⟩ := step_sim wf wft hq ht hs o hp
    exact ⟨p', o', hr.step h1, h2⟩

/-- What a run has done, and what `Run` has returned, if it has. -/
def Observed (targets : GoMap Str Int) (tasks : GoMap Str Task) (tr : List Event) (ret : Option (Option RunErr)) : Prop :=
  ∃ st, Reach targets tasks st ∧ st.trace = tr ∧
    match ret with
    | none => ∀ e, st.main ≠ .returned e
    | some e => st.main = .returned e

/-- **C160.** Two runbooks say the same.  Then what a run of the one may do, it may do in a run of the other: start targets,
execute tasks, in the same order and with the same outcomes, and return the same. -/
theorem C160_same_runs (wf : targets.WF) (wft : tasks.WF) (hq : targets.Perm targets') (ht : SameTasks tasks tasks')
    (tr : List Event) (ret : Option (Option RunErr)) :
    Observed targets tasks tr ret ↔ Observed targets' tasks' tr ret := by
  constructor
  · rintro ⟨st, h, h1, h2⟩
    obtain ⟨p, o, hr, -⟩ := reach_sim wf wft hq ht h
    exact ⟨_, hr, h1, h2⟩
  · rintro ⟨st, h, h1, h2⟩
    have wf' : targets'.WF := (hq.map Prod.fst).nodup_iff.1 wf
    obtain ⟨p, o, hr, -⟩ := reach_sim wf' (ht.wf wft) hq.symm ht.symm h
    exact ⟨_, hr, h1, h2⟩

/-- **C160, at rest.** If a run of the one may be at a state from which nothing happens any more, so may a run of the other,
having done the same. -/
theorem C160_same_ends (wf : targets.WF) (wft : tasks.WF) (hq : targets.Perm targets') (ht : SameTasks tasks tasks')
    (h : Reach targets tasks st) (hstuck : ∀ st1, ¬ Step targets tasks st st1) :
    ∃ st', Reach targets' tasks' st' ∧ st'.trace = st.trace ∧ st'.main = st.main ∧ ∀ st1, ¬ Step targets' tasks' st' st1 := by
  have wf' : targets'.WF := (hq.map Prod.fst).nodup_iff.1 wf
  obtain ⟨p, o, hr, hp⟩ := reach_sim wf wft hq ht h
  refine ⟨_, hr, rfl, rfl, fun st1 hs => ?_⟩
  obtain ⟨p', o', h1, -⟩ := step_sim wf' (ht.wf wft) hq.symm ht.symm hs st.out hp.symm
  exact hstuck _ h1

/-- C160 is about something: the dependencies of a task are written in another order, and there is a run. -/
example : SameTasks [(b!"a", ⟨b!"x", []⟩), (b!"b", ⟨b!"x", []⟩), (b!"d", ⟨b!"x", [b!"a", b!"b"]⟩)]
      [(b!"b", ⟨b!"x", []⟩), (b!"d", ⟨b!"x", [b!"b", b!"a", b!"b"]⟩), (b!"a", ⟨b!"x", []⟩)] ∧
    Observed [(b!"x", 1)] [(b!"a", ⟨b!"x", []⟩), (b!"b", ⟨b!"x", []⟩), (b!"d", ⟨b!"x", [b!"a", b!"b"]⟩)]
      [.started b!"x", .handleStart b!"x" b!"a"] none := by
  refine ⟨⟨by decide +kernel, fun t m => ?_⟩, ?_⟩
  · unfold After
    by_cases h1 : t = b!"a"
    · subst h1
      simp [GoMap.get?]
    · by_cases h2 : t = b!"b"
      · subst h2
        simp [GoMap.get?]
      · by_cases h3 : t = b!"d"
        · subst h3
          simp [GoMap.get?]
          exact .inr
        · simp [GoMap.get?, Ne.symm h1, Ne.symm h2, Ne.symm h3]
  · refine ⟨_, ((((((Reach.init [b!"x"] (.refl _)).step (.targetStart _ _ _ rfl)).step (.targetsStarted _ rfl)).step
      (.schedNew _ _ _ _ rfl rfl (.refl _))).step (.schedSend _ _ _ _ rfl (by decide +kernel))).step
      (.routerRecv _ _ _ _ rfl rfl)).step (.routerSend _ _ _ rfl rfl), rfl, by simp⟩

end Verif.Runner
