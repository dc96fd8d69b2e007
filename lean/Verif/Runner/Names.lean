import Verif.Runner.Order

/-!
# C148: without dependencies every target begins its tasks in the order of their names
-/

namespace Verif.Runner
open Verif Dag Sched Spec

variable {targets targets' : GoMap Str Int} {tasks tasks' : GoMap Str Task} {st st' : St}

/-- What has begun, and on which target, in the order in which it has. -/
def beganPairs (tr : List Event) : List (Str × Str) :=
  tr.filterMap fun
    | .handleStart q t => some (q, t)
    | _ => none

/-- The names of the tasks of the target `q`, sorted. -/
def namesOn (q : Str) (tasks : GoMap Str Task) : List Str :=
  sortStrs ((tasks.filter fun p => p.2.target = q).map Prod.fst)

/-! ## The dependency graph -/

theorem tsortLoop_no_edges (fuel : Nat) (l : List Str) (v : Visitor) (hv : v.visiting = []) (hc : v.cycle = none)
    (hd : ∀ x ∈ l, x ∉ v.visited) (hn : l.Nodup) :
    tsortLoop (fun _ => []) (fuel + 1) l v = some (.sorted (v.sorted ++ l)) := by
  induction l generalizing v with
  | nil => simp [tsortLoop]
  | cons x l ih =>
    have hx : x ∉ v.visited := hd x (by simp)
    obtain ⟨h1, h2⟩ := List.nodup_cons.1 hn
    simp only [tsortLoop, visit, visitEdges, hv, hx, if_false, List.not_mem_nil, hc]
    rw [ih]
    · simp
    · simp
    · rfl
    · intro y hy
      simp only [List.mem_cons, not_or]
      exact ⟨fun e => h1 (e ▸ hy), hd y (by simp [hy])⟩
    · exact h2

theorem tsort_no_edges {nodes : GoMap Str (List Str)} (wf : nodes.WF) (hE : ∀ n m, ¬ Edge nodes n m)
    {g : DepGraph} (h : newDependencyGraph nodes = some (.ok g)) : g.pending = sortStrs nodes.keys := by
  obtain ⟨dg, h1, h2⟩ := pending_tsort wf h
  obtain ⟨k1, -, -, k4⟩ := newDirectedGraph_ok wf h1
  have hs : (fun n => sortStrs (getSet dg n)) = fun _ => [] := by
    funext n
    have : getSet dg n = [] := by
      rw [List.eq_nil_iff_forall_not_mem]
      intro m hm
      rw [mem_getSet, k4] at hm
      exact hE n m hm
    rw [this]; rfl
  unfold tsort at h2
  rw [hs, tsortLoop_no_edges _ _ _ rfl rfl (by simp) (sortStrs_nodup (by rw [k1]; exact wf)), k1] at h2
  simpa using h2.symm

theorem popReady_all (r : Str → Bool) (l : List Str) (h : ∀ x ∈ l, r x = true) : popReady r l = (l, []) := by
  induction l with
  | nil => rfl
  | cons x l ih => simp [popReady, h x (by simp), ih fun y hy => h y (by simp [hy])]

/-- Without dependencies everything is released at once. -/
theorem next_no_edges {nodes : GoMap Str (List Str)} (hE : ∀ n m, ¬ Edge nodes n m) {g : DepGraph}
    {done emitted : List Str} (h : DepInv nodes g done emitted) (c : Str) :
    (g.next c).2 = g.pending ∧ (g.next c).1.pending = [] := by
  have hr : ∀ x, decide (NodeSet.size (getSet (markCompleted c (getSet g.dependents c) g.dependencies) x) < 1) = true := by
    intro x
    have := next_isReady h c x
    rw [this]
    exact fun m hm => absurd hm (hE x m)
  unfold DepGraph.next
  simp only
  rw [popReady_all _ _ fun x _ => hr x]
  simp [sweep]

/-! ## The scheduler -/

/-- No task waits for another. -/
def NoDeps (tasks : GoMap Str Task) : Prop := ∀ t task, tasks.get? t = some task → task.after = []

theorem NoDeps.edge (h : NoDeps tasks) (n m : Str) : ¬ Edge (depInput tasks) n m := by
  intro he
  obtain ⟨task, h1, h2⟩ := edge_depInput.1 he
  rw [h n task h1] at h2
  cases h2

theorem released_no_deps (wft : tasks.WF) (hn : NoDeps tasks) {s : Scheduler} {out : List (Str × Str)} {calls : List Str}
    (h : History targets tasks s out calls) :
    ∃ rep, SInv tasks s rep (sortStrs tasks.keys) out ∧ s.deps.pending = [] := by
  have hk : (depInput tasks).keys = tasks.keys := by simp [depInput, GoMap.keys, Function.comp_def]
  induction h with
  | new h =>
    obtain ⟨g, hg, -, hd, hi, -, hdeps, -⟩ := new_pres wft h
    obtain ⟨e1, e2⟩ := next_no_edges hn.edge hd []
    rw [e1, tsort_no_edges (depInput_wf wft) hn.edge hg, hk] at hi
    exact ⟨_, hi, by rw [hdeps, e2]⟩
  | next h c hn' ih =>
    obtain ⟨rep, hi, hp⟩ := ih
    obtain ⟨a, -, b⟩ := next_pres hi c hn'
    obtain ⟨e1, e2⟩ := next_no_edges hn.edge hi.dep c
    rw [e1, hp, List.append_nil] at a
    exact ⟨_, a, by rw [b, e2]⟩
  | refused h c hn' ih =>
    obtain ⟨rep, hi, hp⟩ := ih
    have a := (next_refused hi c hn').1
    refine ⟨_, a, ?_⟩
    have := a.dep.part
    rw [hk] at this
    have hl := this.length_eq
    rw [List.length_append, (sortStrs_perm _).length_eq] at hl
    exact List.length_eq_zero_iff.1 (by omega)

theorem names_filter (wft : tasks.WF) (q : Str) :
    (sortStrs tasks.keys).filter (fun t => targetOf (tasks.map (fun p => (p.1, p.2.target))) t = q ∧ t ∈ tasks.keys) =
      namesOn q tasks := by
  unfold namesOn
  refine eq_of_perm_sorted ?_ ((sortStrs_sorted _).filter _) (sortStrs_sorted _)
  refine (List.perm_ext_iff_of_nodup ((sortStrs_nodup wft).filter _) (sortStrs_nodup ?_)).2 ?_
  · exact (List.Sublist.map _ List.filter_sublist).nodup wft
  · intro t
    simp only [List.mem_filter, mem_sortStrs, decide_eq_true_eq, List.mem_map, Prod.exists, exists_and_right,
      exists_eq_right]
    have hg : ∀ task, tasks.get? t = some task →
        targetOf (tasks.map (fun p => (p.1, p.2.target))) t = task.target := by
      intro task h
      unfold targetOf
      rw [GoMap.get?_map_val (fun _ (x : Task) => x.target), h]
      rfl
    constructor
    · rintro ⟨h1, h2, -⟩
      obtain ⟨task, h3⟩ := GoMap.exists_get?_of_mem_keys h1
      refine ⟨task, GoMap.mem_of_get? h3, ?_⟩
      rw [← hg task h3]; exact h2
    · rintro ⟨task, h1, h2⟩
      have h3 := GoMap.get?_of_mem wft h1
      have := GoMap.mem_keys_of_get? h3
      exact ⟨this, by rw [hg task h3]; exact h2, this⟩

/-- Of every target the first tasks by name have been handed out, in this order. -/
theorem out_names (wft : tasks.WF) (hn : NoDeps tasks) {s : Scheduler} {out : List (Str × Str)} {calls : List Str}
    (h : History targets tasks s out calls) (q : Str) :
    (out.filter (fun p => p.1 = q)).map Prod.snd <+: namesOn q tasks := by
  obtain ⟨rep, hi, -⟩ := released_no_deps wft hn h
  have := hi.fifo q
  rw [hi.tasksEq] at this
  rw [← names_filter wft q]
  refine ⟨getQ s.pending q, this.trans ?_⟩
  apply List.filter_congr
  intro t ht
  rw [mem_sortStrs] at ht
  simp [ht]

/-! ## The run -/

@[simp] theorem beganPairs_append (a b : List Event) : beganPairs (a ++ b) = beganPairs a ++ beganPairs b := List.filterMap_append

theorem begunOn_eq (q : Str) (tr : List Event) : begunOn q tr = ((beganPairs tr).filter (fun p => p.1 = q)).map Prod.snd := by
  induction tr with
  | nil => rfl
  | cons e tr ih =>
    have h1 : begunOn q (e :: tr) = begunOn q [e] ++ begunOn q tr := List.filterMap_append (l := [e])
    have h2 : beganPairs (e :: tr) = beganPairs [e] ++ beganPairs tr := beganPairs_append [e] tr
    rw [h1, h2, List.filter_append, List.map_append, ← ih]
    congr 1
    cases e with
    | handleStart q' t => by_cases e : q' = q <;> simp [begunOn, beganPairs, e]
    | _ => rfl

theorem flat_filter_perm {r r' : GoMap Str (List Str)} (wf : r.WF) (hp : r'.Perm r) (q : Str) :
    (flat r').filter (fun p => p.1 = q) = (flat r).filter (fun p => p.1 = q) := by
  have wf' : GoMap.WF r' := (hp.map Prod.fst).nodup_iff.2 wf
  rw [flat_filter wf, flat_filter wf']
  unfold getQ
  rw [GoMap.get?_perm wf' hp]

/-- What has been handed out for a target has begun, or is on its way, in the same order. -/
theorem Reach.queue (wf : targets.WF) (wft : tasks.WF) (h : Reach targets tasks st) (q : Str) :
    (beganPairs st.trace ++ st.router.held ++ st.ready ++ st.sched.todo).filter (fun p => p.1 = q) =
      st.out.filter (fun p => p.1 = q) := by
  induction h with
  | init order h => simp [Runner.init, beganPairs, RouterPC.held, SchedPC.todo]
  | @step st st' hr hs ih =>
    obtain ⟨hc, hf⟩ := hr.inv wf wft
    have hstart : ∀ (x : Str), beganPairs [.started x] = [] := fun _ => rfl
    have hfail : ∀ (x : Str), beganPairs [.startFailed x] = [] := fun _ => rfl
    have hstop : ∀ (x : Str), beganPairs [.stopped x] = [] := fun _ => rfl
    have hend : ∀ (x t : Str) ok, beganPairs [.handleEnd x t ok] = [] := fun _ _ _ => rfl
    have hbeg : ∀ (x t : Str), beganPairs [.handleStart x t] = [(x, t)] := fun _ _ => rfl
    cases hs with
    | schedNew s r r' h hn hp =>
      obtain ⟨-, -, -, -, -, wr, -, -⟩ := new_pres wft hn
      simp only [h, SchedPC.todo, List.append_nil] at ih ⊢
      rw [List.filter_append, ih, List.filter_append, flat_filter_perm wr hp]
    | schedNext s s' c rest r r' h hd hn hp =>
      obtain ⟨rel, hi, -⟩ := (hf.sched1 _ _ h).inv wft
      obtain ⟨-, wr, -⟩ := next_pres hi c hn
      simp only [h, SchedPC.todo, List.append_nil] at ih ⊢
      rw [List.filter_append, ih, List.filter_append, flat_filter_perm wr hp]
    | targetStartFail q' rest h =>
      have h0 : st.router = .notStarted := hc.router0.2 ⟨_, h⟩
      simpa [h0, RouterPC.held, hfail] using ih
    | targetsStarted h =>
      have h0 : st.router = .notStarted := hc.router0.2 ⟨_, h⟩
      simpa [h0, RouterPC.held] using ih
    | handleEnd q' t ok h => simpa [hend] using ih
    | _ => first | exact ih | (rw [← ih]; simp_all [RouterPC.held, SchedPC.todo])

/-- **C148, first in, first out.** Every target begins tasks in the order in which the scheduler has handed them out, and
none is left out: those it has begun are the first of those handed out for it. -/
theorem C148_fifo (wf : targets.WF) (wft : tasks.WF) (h : Reach targets tasks st) (q : Str) :
    begunOn q st.trace <+: (st.out.filter (fun p => p.1 = q)).map Prod.snd := by
  rw [begunOn_eq, ← h.queue wf wft q]
  simp only [List.append_assoc, List.filter_append, List.map_append]
  exact List.prefix_append _ _

/-- **C148.** No task of a runbook waits for another.  At every moment of every run the tasks a target has begun are the
first of its tasks, sorted by name, in this order.  When a run has returned nil these are all of them. -/
theorem C148_by_name (wf : targets.WF) (wft : tasks.WF) (hn : NoDeps tasks) (h : Reach targets tasks st) (q : Str) :
    begunOn q st.trace <+: namesOn q tasks ∧
    (st.main = .returned none → begunOn q st.trace = namesOn q tasks) := by
  obtain ⟨hc, hf⟩ := h.inv wf wft
  have hp : begunOn q st.trace <+: namesOn q tasks := by
    have h1 := C148_fifo wf wft h q
    rcases hf.protocol with e | ⟨s, hs⟩
    · rw [e] at h1
      rw [List.prefix_nil.1 h1]
      exact List.nil_prefix
    · exact h1.trans (out_names wft hn hs.history q)
  refine ⟨hp, fun hret => ?_⟩
  have hv : ValidDeps tasks := by
    refine ⟨?_, ?_⟩
    · rintro t m ⟨task, h1, h2⟩
      rw [hn t task h1] at h2
      cases h2
    · rintro t ht
      obtain ⟨m, hm⟩ : ∃ m, After tasks t m := by
        cases ht with
        | single h => exact ⟨_, h⟩
        | tail h1 h2 => exact ⟨_, (Relation.TransGen.head'_iff.1 h1).choose_spec.1⟩
      obtain ⟨task, h1, h2⟩ := hm
      rw [hn t task h1] at h2
      cases h2
  obtain ⟨rest, hr⟩ := hp
  cases rest with
  | nil => rw [← hr, List.append_nil]
  | cons t rest =>
    exfalso
    have hnd : (namesOn q tasks).Nodup :=
      sortStrs_nodup ((List.Sublist.map _ List.filter_sublist).nodup wft)
    have hm : t ∈ namesOn q tasks := by rw [← hr]; simp
    rw [namesOn, mem_sortStrs, List.mem_map] at hm
    obtain ⟨⟨t', task⟩, hm, e⟩ := hm
    have e : t' = t := e
    subst e
    obtain ⟨hm, hq⟩ := List.mem_filter.1 hm
    have hq : task.target = q := by simpa using hq
    have hg := GoMap.get?_of_mem wft hm
    obtain ⟨-, q', hq'⟩ := C20_nil_means_all_succeeded_partial wf wft hv h hret _ (GoMap.mem_keys_of_get? hg)
    have hs := hf.endTr _ _ _ hq'
    obtain ⟨task', g1, g2⟩ := (C19_run_at_most_once_one_per_target wf wft h).2.1 _ _ hs
    rw [hg] at g1
    cases g1
    have : t' ∈ begunOn q st.trace := by
      rw [mem_begunOn, ← hq, g2]
      exact hs
    rw [← hr] at hnd
    exact (List.nodup_append.1 hnd).2.2 _ this _ (by simp) rfl

/-- C148 is about something: a run in which two tasks of one of two targets have begun. -/
example : NoDeps [(b!"b", ⟨b!"x", []⟩), (b!"z", ⟨b!"y", []⟩), (b!"a", ⟨b!"x", []⟩)] ∧
    namesOn b!"x" [(b!"b", ⟨b!"x", []⟩), (b!"z", ⟨b!"y", []⟩), (b!"a", ⟨b!"x", []⟩)] = [b!"a", b!"b"] ∧
    ∃ st, Reach [(b!"x", 2), (b!"y", 1)] [(b!"b", ⟨b!"x", []⟩), (b!"z", ⟨b!"y", []⟩), (b!"a", ⟨b!"x", []⟩)] st ∧
      begunOn b!"x" st.trace = [b!"a", b!"b"] := by
  refine ⟨?_, by decide +kernel, ?_⟩
  · intro t task h
    have := GoMap.mem_of_get? h
    simp only [List.mem_cons, Prod.mk.injEq, List.not_mem_nil, or_false] at this
    rcases this with ⟨-, rfl⟩ | ⟨-, rfl⟩ | ⟨-, rfl⟩ <;> rfl
  · have r0 : Reach [(b!"x", 2), (b!"y", 1)]
        [(b!"b", ⟨b!"x", []⟩), (b!"z", ⟨b!"y", []⟩), (b!"a", ⟨b!"x", []⟩)] _ :=
      Reach.init [b!"x", b!"y"] (List.Perm.refl _)
    have r1 := Reach.step r0 (Step.targetStart _ b!"x" [b!"y"] rfl)
    have r2 := Reach.step r1 (Step.targetStart _ b!"y" [] rfl)
    have r3 := Reach.step r2 (Step.targetsStarted _ rfl)
    have r4 := Reach.step r3 (Step.schedNew _ _ _ _ rfl rfl (List.Perm.refl _))
    have r5 := Reach.step r4 (Step.schedSend _ _ (b!"x", b!"a") [(b!"x", b!"b"), (b!"y", b!"z")] rfl (by decide))
    have r6 := Reach.step r5 (Step.schedSend _ _ (b!"x", b!"b") [(b!"y", b!"z")] rfl (by decide))
    have r7 := Reach.step r6 (Step.routerRecv _ b!"x" b!"a" [(b!"x", b!"b")] rfl rfl)
    have r8 := Reach.step r7 (Step.routerSend _ b!"x" b!"a" rfl rfl)
    have r9 := Reach.step r8 (Step.handleEnd _ b!"x" b!"a" true rfl)
    have r10 := Reach.step r9 (Step.report _ b!"x" b!"a" true rfl (by decide))
    have r11 := Reach.step r10 (Step.routerRecv _ b!"x" b!"b" [] rfl rfl)
    have r12 := Reach.step r11 (Step.routerSend _ b!"x" b!"b" rfl rfl)
    exact ⟨_, r12, rfl⟩

/-! ## C149: targets whose tasks do not wait for each other -/

/-- No task waits for a task of another target. -/
def Apart (tasks : GoMap Str Task) : Prop :=
  ∀ t m task task', tasks.get? t = some task → tasks.get? m = some task' → m ∈ task.after → task.target = task'.target

/-- **C149 (partial).** No task of a runbook waits for another.  Compare two runs of it, each at any moment: the tasks a
target has begun in the one are, in the same order, the first it has begun in the other, or the other way round.  Missing:
tasks that wait for tasks of their own target (`C149_refuted`; with one target C146). -/
theorem C149_own_order_partial (wf : targets.WF) (wft : tasks.WF) (hq : targets.Perm targets') (ht : tasks.Perm tasks')
    (hn : NoDeps tasks) (h : Reach targets tasks st) (h' : Reach targets' tasks' st') (q : Str) :
    begunOn q st.trace <+: begunOn q st'.trace ∨ begunOn q st'.trace <+: begunOn q st.trace := by
  have wf' : targets'.WF := (hq.map Prod.fst).nodup_iff.1 wf
  have wft' : tasks'.WF := (ht.map Prod.fst).nodup_iff.1 wft
  have hn' : NoDeps tasks' := fun t task e => hn t task (by rw [GoMap.get?_perm wft ht]; exact e)
  have h1 := (C148_by_name wf wft hn h q).1
  have h2 := (C148_by_name wf' wft' hn' h' q).1
  have e : namesOn q tasks' = namesOn q tasks := sortStrs_congr ((ht.symm.filter _).map _)
  rw [e] at h2
  exact List.prefix_or_prefix_of_prefix h1 h2

def apartTargets : GoMap Str Int := [(b!"x", 2), (b!"y", 1)]

def apartTasks : GoMap Str Task :=
  [(b!"a", ⟨b!"x", []⟩), (b!"b", ⟨b!"x", [b!"a"]⟩), (b!"c", ⟨b!"x", []⟩), (b!"d", ⟨b!"x", []⟩), (b!"z", ⟨b!"y", []⟩)]

/-- **C149 refuted.** b waits for a, and all of these are of the target x; z is of the target y.  Whether x begins b or d
as its third task depends on whether z or a has ended first: the scheduler passes over d at first, because it comes after c
in the list of tasks (C11), and takes it up again when any task ends. -/
theorem C149_refuted : Apart apartTasks ∧ ∃ st st', Reach apartTargets apartTasks st ∧ Reach apartTargets apartTasks st' ∧
    begunOn b!"x" st.trace = [b!"a", b!"c", b!"b"] ∧ begunOn b!"x" st'.trace = [b!"a", b!"c", b!"d"] := by
  refine ⟨?_, ?_⟩
  · intro t m task task' h1 h2 h3
    have h1 := GoMap.mem_of_get? h1
    have h2 := GoMap.mem_of_get? h2
    simp only [apartTasks, List.mem_cons, Prod.mk.injEq, List.not_mem_nil, or_false] at h1 h2
    rcases h1 with ⟨rfl, rfl⟩ | ⟨rfl, rfl⟩ | ⟨rfl, rfl⟩ | ⟨rfl, rfl⟩ | ⟨rfl, rfl⟩ <;> simp at h3
    subst h3
    rcases h2 with ⟨-, rfl⟩ | ⟨e, rfl⟩ | ⟨e, rfl⟩ | ⟨e, rfl⟩ | ⟨e, rfl⟩
    · rfl
    all_goals exact absurd e (by decide)
  have r0 : Reach apartTargets apartTasks _ := Reach.init [b!"x", b!"y"] (List.Perm.refl _)
  have r1 := Reach.step r0 (Step.targetStart _ b!"x" [b!"y"] rfl)
  have r2 := Reach.step r1 (Step.targetStart _ b!"y" [] rfl)
  have r3 := Reach.step r2 (Step.targetsStarted _ rfl)
  have r4 := Reach.step r3 (Step.schedNew _ _ _ _ rfl rfl (List.Perm.refl _))
  have r5 := Reach.step r4 (Step.schedSend _ _ (b!"x", b!"a") [(b!"x", b!"c"), (b!"y", b!"z")] rfl (by decide))
  have r6 := Reach.step r5 (Step.schedSend _ _ (b!"x", b!"c") [(b!"y", b!"z")] rfl (by decide))
  have r7 := Reach.step r6 (Step.schedSend _ _ (b!"y", b!"z") [] rfl (by decide))
  have r8 := Reach.step r7 (Step.routerRecv _ b!"x" b!"a" [(b!"x", b!"c"), (b!"y", b!"z")] rfl rfl)
  have r9 := Reach.step r8 (Step.routerSend _ b!"x" b!"a" rfl rfl)
  have r10 := Reach.step r9 (Step.routerRecv _ b!"x" b!"c" [(b!"y", b!"z")] rfl rfl)
  have r11 := Reach.step r10 (Step.handleEnd _ b!"x" b!"a" true rfl)
  have hs : ∃ st, Reach apartTargets apartTasks st ∧ begunOn b!"x" st.trace = [b!"a", b!"c", b!"b"] := by
    have s12 := Reach.step r11 (Step.report _ b!"x" b!"a" true rfl (by decide))
    have s13 := Reach.step s12 (Step.mainOk _ b!"a" _ rfl rfl)
    have s14 := Reach.step s13 (Step.mainSend _ b!"a" rfl (by decide))
    have s15 := Reach.step s14 (Step.schedNext _ _ _ b!"a" [] _ _ rfl rfl rfl (List.Perm.refl _))
    have s16 := Reach.step s15 (Step.schedSend _ _ (b!"x", b!"b") [] rfl (by decide))
    have s17 := Reach.step s16 (Step.routerSend _ b!"x" b!"c" rfl rfl)
    have s18 := Reach.step s17 (Step.handleEnd _ b!"x" b!"c" true rfl)
    have s19 := Reach.step s18 (Step.report _ b!"x" b!"c" true rfl (by decide))
    have s20 := Reach.step s19 (Step.routerRecv _ b!"y" b!"z" [(b!"x", b!"b")] rfl rfl)
    have s21 := Reach.step s20 (Step.routerSend _ b!"y" b!"z" rfl rfl)
    have s22 := Reach.step s21 (Step.routerRecv _ b!"x" b!"b" [] rfl rfl)
    have s23 := Reach.step s22 (Step.routerSend _ b!"x" b!"b" rfl rfl)
    exact ⟨_, s23, rfl⟩
  have ht : ∃ st, Reach apartTargets apartTasks st ∧ begunOn b!"x" st.trace = [b!"a", b!"c", b!"d"] := by
    have t4 := Reach.step r3 (Step.schedNew _ _ _ [(b!"y", [b!"z"]), (b!"x", [b!"a", b!"c"])] rfl rfl
      (List.Perm.swap _ _ _))
    have t5 := Reach.step t4 (Step.schedSend _ _ (b!"y", b!"z") [(b!"x", b!"a"), (b!"x", b!"c")] rfl (by decide))
    have t6 := Reach.step t5 (Step.schedSend _ _ (b!"x", b!"a") [(b!"x", b!"c")] rfl (by decide))
    have t7 := Reach.step t6 (Step.schedSend _ _ (b!"x", b!"c") [] rfl (by decide))
    have t8 := Reach.step t7 (Step.routerRecv _ b!"y" b!"z" [(b!"x", b!"a"), (b!"x", b!"c")] rfl rfl)
    have t9 := Reach.step t8 (Step.routerSend _ b!"y" b!"z" rfl rfl)
    have t10 := Reach.step t9 (Step.handleEnd _ b!"y" b!"z" true rfl)
    have t11 := Reach.step t10 (Step.report _ b!"y" b!"z" true rfl (by decide))
    have t12 := Reach.step t11 (Step.mainOk _ b!"z" _ rfl rfl)
    have t13 := Reach.step t12 (Step.mainSend _ b!"z" rfl (by decide))
    have t14 := Reach.step t13 (Step.schedNext _ _ _ b!"z" [] _ _ rfl rfl rfl (List.Perm.refl _))
    have t15 := Reach.step t14 (Step.routerRecv _ b!"x" b!"a" [(b!"x", b!"c")] rfl rfl)
    have t16 := Reach.step t15 (Step.routerSend _ b!"x" b!"a" rfl rfl)
    have t17 := Reach.step t16 (Step.handleEnd _ b!"x" b!"a" true rfl)
    have t18 := Reach.step t17 (Step.report _ b!"x" b!"a" true rfl (by decide))
    have t19 := Reach.step t18 (Step.mainOk _ b!"a" _ rfl rfl)
    have t20 := Reach.step t19 (Step.mainSend _ b!"a" rfl (by decide))
    have t21 := Reach.step t20 (Step.schedNext _ _ _ b!"a" [] _ _ rfl rfl rfl (List.Perm.refl _))
    have t22 := Reach.step t21 (Step.schedSend _ _ (b!"x", b!"d") [] rfl (by decide))
    have t23 := Reach.step t22 (Step.routerRecv _ b!"x" b!"c" [(b!"x", b!"d")] rfl rfl)
    have t24 := Reach.step t23 (Step.routerSend _ b!"x" b!"c" rfl rfl)
    have t25 := Reach.step t24 (Step.handleEnd _ b!"x" b!"c" true rfl)
    have t26 := Reach.step t25 (Step.report _ b!"x" b!"c" true rfl (by decide))
    have t27 := Reach.step t26 (Step.routerRecv _ b!"x" b!"d" [] rfl rfl)
    have t28 := Reach.step t27 (Step.routerSend _ b!"x" b!"d" rfl rfl)
    exact ⟨_, t28, rfl⟩
  obtain ⟨st, a1, a2⟩ := hs
  obtain ⟨st', b1, b2⟩ := ht
  exact ⟨st, st', a1, b1, a2, b2⟩

end Verif.Runner
