import Verif.Runner.Outcome
import Verif.Runner.Stop
import Verif.Runner.Exact
import Verif.Sched.Same

/-!
# C146: the tasks of a runbook with one target are executed in the same order in every run
-/

namespace Verif.Runner
open Verif Dag Sched

variable {targets targets' : GoMap Str Int} {tasks tasks' : GoMap Str Task} {st st' : St}

/-- The tasks that have begun, in the order in which they have. -/
def executed (tr : List Event) : List Str :=
  tr.filterMap fun
    | .handleStart _ t => some t
    | _ => none

@[simp] theorem executed_append (a b : List Event) : executed (a ++ b) = executed a ++ executed b :=
  List.filterMap_append

@[simp] theorem executed_start (q t : Str) : executed [.handleStart q t] = [t] := rfl
@[simp] theorem executed_nil : executed [] = [] := rfl
@[simp] theorem executed_end (q t : Str) (ok : Bool) : executed [.handleEnd q t ok] = [] := rfl
@[simp] theorem executed_started (q : Str) : executed [.started q] = [] := rfl
@[simp] theorem executed_startFailed (q : Str) : executed [.startFailed q] = [] := rfl
@[simp] theorem executed_stopped (q : Str) : executed [.stopped q] = [] := rfl

theorem mem_executed {tr : List Event} {t : Str} : t ∈ executed tr ↔ ∃ q, .handleStart q t ∈ tr := by
  unfold executed
  rw [List.mem_filterMap]
  constructor
  · rintro ⟨x, hx, h⟩
    cases x <;> simp at h
    subst h
    exact ⟨_, hx⟩
  · rintro ⟨q, h⟩
    exact ⟨_, h, rfl⟩

/-- All tasks are of the target `q`. -/
def OneTarget (tasks : GoMap Str Task) (q : Str) : Prop := ∀ t task, tasks.get? t = some task → task.target = q

/-! ## The scheduler is told of the tasks in the order in which it handed them out -/

/-- A history in which the completions come in the order in which the tasks were handed out. -/
inductive InOrder (targets : GoMap Str Int) (tasks : GoMap Str Task) :
    Scheduler → List (Str × Str) → List Str → Prop
  | new {s : Scheduler} {r : GoMap Str (List Str)} (h : new targets tasks = some (.ok (s, r))) :
      InOrder targets tasks s (flat r) []
  | next {s s' : Scheduler} {out : List (Str × Str)} {calls : List Str} {r : GoMap Str (List Str)} {c : Str}
      (h : InOrder targets tasks s out calls) (hc : (out.map Prod.snd)[calls.length]? = some c)
      (hn : s.next c = (s', some r)) : InOrder targets tasks s' (out ++ flat r) (calls ++ [c])

theorem InOrder.history {s : Scheduler} {out : List (Str × Str)} {calls : List Str}
    (h : InOrder targets tasks s out calls) : History targets tasks s out calls := by
  induction h with
  | new h => exact .new h
  | next _ _ hn ih => exact .next ih _ hn

theorem out_target (wft : tasks.WF) {q : Str} (h1 : OneTarget tasks q) {s : Scheduler} {out : List (Str × Str)}
    {calls : List Str} (h : History targets tasks s out calls) : ∀ p ∈ out, p.1 = q := by
  rintro ⟨q', t⟩ hp
  obtain ⟨task, h2, h3⟩ := (C13_handed_out_once_on_own_target wft h).2 q' t hp
  rw [h1 t task h2] at h3
  exact h3.symm

theorem oneTarget_perm (wft : tasks.WF) (ht : tasks.Perm tasks') {q : Str} (h : OneTarget tasks q) :
    OneTarget tasks' q := by
  intro t task h1
  rw [← GoMap.get?_perm wft ht] at h1
  exact h t task h1

/-- The same history gives the same tasks in the same order. -/
theorem out_same (wf : targets.WF) (wft : tasks.WF) (hq : targets.Perm targets') (ht : tasks.Perm tasks') {q : Str}
    (h1 : OneTarget tasks q) {s s' : Scheduler} {out out' : List (Str × Str)} {calls : List Str}
    (h : History targets tasks s out calls) (h' : History targets' tasks' s' out' calls) : out = out' := by
  have wft' : tasks'.WF := (ht.map Prod.fst).nodup_iff.1 wft
  have := (C145_determined wf wft hq ht h h').1 q
  rwa [List.filter_eq_self.2 (fun p hp => by simpa using out_target wft h1 h p hp),
    List.filter_eq_self.2 (fun p hp => by simpa using out_target wft' (oneTarget_perm wft ht h1) h' p hp)] at this

theorem InOrder.comparable (wf : targets.WF) (wft : tasks.WF) (hq : targets.Perm targets') (ht : tasks.Perm tasks')
    {q : Str} (h1 : OneTarget tasks q) {s s' : Scheduler} {out out' : List (Str × Str)} {calls calls' : List Str}
    (h : InOrder targets tasks s out calls) (h' : InOrder targets' tasks' s' out' calls')
    (hl : calls.length ≤ calls'.length) : calls <+: calls' ∧ out <+: out' := by
  induction h' with
  | @new s' r h' =>
    have : calls = [] := List.length_eq_zero_iff.1 (by simpa using hl)
    subst this
    rw [out_same wf wft hq ht h1 h.history (.new h')]
    exact ⟨List.prefix_rfl, List.prefix_rfl⟩
  | @next s1 s2 out1 calls1 r c h' hc hn ih =>
    by_cases hlt : calls.length ≤ calls1.length
    · obtain ⟨a, b⟩ := ih hlt
      exact ⟨a.trans (List.prefix_append _ _), b.trans (List.prefix_append _ _)⟩
    · have hle : calls.length = calls1.length + 1 := by
        simp only [List.length_append, List.length_singleton] at hl
        omega
      cases h with
      | new _ => simp at hle
      | @next s3 _ out3 calls3 r3 c3 h hc3 hn3 =>
        have hl3 : calls3.length = calls1.length := by simpa using hle
        -- the two histories before agree
        have key : calls3 = calls1 := by
          clear ih hl hlt hle hn hn3 hc hc3
          induction h generalizing s1 out1 calls1 with
          | new _ => exact (List.length_eq_zero_iff.1 (by simpa using hl3.symm)).symm
          | @next s4 _ out4 calls4 r4 c4 h hc4 hn4 ih =>
            cases h' with
            | new _ => simp at hl3
            | @next s5 _ out5 calls5 r5 c5 h' hc5 hn5 =>
              have hl5 : calls4.length = calls5.length := by simpa using hl3
              have e := ih h' hl5
              subst e
              rw [out_same wf wft hq ht h1 h.history h'.history, hc5] at hc4
              cases hc4
              rfl
        subst key
        have e := out_same wf wft hq ht h1 h.history h'.history
        rw [e, hc] at hc3
        cases hc3
        refine ⟨List.prefix_rfl, ?_⟩
        have := out_same wf wft hq ht h1 (History.next h.history c hn3) (History.next h'.history c hn)
        rw [this]

/-! ## The run -/

/-- The task a target is executing or has not reported yet. -/
def TgtPC.task : TgtPC → List Str
  | .running t => [t]
  | .reporting t _ => [t]
  | _ => []

/-- Nothing has been drained yet. -/
def MainPC.early : MainPC → Bool
  | .starting _ => true
  | .failing _ => true
  | .loop1 => true
  | .sendDone _ => true
  | _ => false

/-- What has been handed out, where it is, and in which order. -/
structure Ord (targets : GoMap Str Int) (tasks : GoMap Str Task) (q : Str) (st : St) : Prop where
  queue : executed st.trace ++ (st.router.held ++ st.ready ++ st.sched.todo).map Prod.snd = st.out.map Prod.snd
  order : st.out = [] ∨ ∃ s, InOrder targets tasks s st.out st.completed
  sending : ∀ s l, st.sched = .sending s l → InOrder targets tasks s st.out st.completed
  told : st.sched ≠ .stopped → st.completed ++ st.done ++ st.main.held <+: executed st.trace
  exact : st.sched ≠ .stopped → st.main.early = true →
    executed st.trace = st.completed ++ st.done ++ st.main.held ++ st.ended.map Prod.fst ++ (st.tgt q).task

theorem flat_one {r r' : GoMap Str (List Str)} (wf : r.WF) (hp : r'.Perm r) {q : Str} (h : ∀ p ∈ flat r, p.1 = q) :
    flat r' = flat r := by
  have wf' : GoMap.WF r' := (hp.map Prod.fst).nodup_iff.2 wf
  have h' : ∀ p ∈ flat r', p.1 = q := fun p hm => h p ((flat_perm hp).mem_iff.1 hm)
  have e : (flat r).filter (fun p => p.1 = q) = flat r := List.filter_eq_self.2 fun p hm => by simpa using h p hm
  have e' : (flat r').filter (fun p => p.1 = q) = flat r' := List.filter_eq_self.2 fun p hm => by simpa using h' p hm
  rw [← e, ← e', flat_filter wf, flat_filter wf']
  unfold getQ
  rw [GoMap.get?_perm wf' hp]

theorem Ord.step (wf : targets.WF) (wft : tasks.WF) {q : Str} (h1 : OneTarget tasks q) (hr : Reach targets tasks st)
    (h : Ord targets tasks q st) (hs : Step targets tasks st st') : Ord targets tasks q st' := by
  obtain ⟨hc, hf⟩ := hr.inv wf wft
  have hns := hc.next_notStarted
  have hrun : ∀ q' t, st.tgt q' = .running t → q' = q := by
    intro q' t e
    obtain ⟨task, h2, h3⟩ := (C19_run_at_most_once_one_per_target wf wft hr).2.1 q' t (hf.runTr q' t e)
    rw [← h3, h1 t task h2]
  have hrep : ∀ q' t ok, st.tgt q' = .reporting t ok → q' = q := by
    intro q' t ok e
    obtain ⟨task, h2, h3⟩ := (C19_run_at_most_once_one_per_target wf wft hr).2.1 q' t
      (hf.endTr q' t ok (hc.reportErr q' t ok e))
    rw [← h3, h1 t task h2]
  have hhold : ∀ q' t, st.router = .hold q' t → q' = q := by
    intro q' t e
    have hm : (q', t) ∈ st.out := hf.beforeOut (q', t) (by simp [St.before, e, RouterPC.held])
    rcases hf.protocol with e' | ⟨s, hp⟩
    · rw [e'] at hm; cases hm
    · exact out_target wft h1 hp.history _ hm
  obtain ⟨g1, g2, g3, g4, g5⟩ := h
  cases hs with
  | schedNewErr e h hn =>
    have := hf.sched0 h
    refine ⟨by simpa [SchedPC.todo, h] using g1, g2, by simp, by simp, by simp⟩
  | schedNew s r r' h hn hp =>
    obtain ⟨e1, e2⟩ := hf.sched0 h
    obtain ⟨-, -, -, -, -, wr, -, -⟩ := new_pres wft hn
    have hfl : flat r' = flat r := flat_one wr hp (out_target wft h1 (.new hn))
    have hio : InOrder targets tasks s (st.out ++ flat r) st.completed := by
      rw [e1, e2]; exact .new hn
    refine ⟨?_, .inr ⟨s, hio⟩, ?_, fun _ => g4 (by simp [h]), fun _ => g5 (by simp [h])⟩
    · simp only [h, SchedPC.todo, List.append_nil, List.map_append] at g1 ⊢
      rw [← g1, hfl]; simp
    · intro s' l e
      cases e
      exact hio
  | schedSend s p todo h hcap =>
    refine ⟨?_, g2, ?_, fun _ => g4 (by simp [h]), fun _ => g5 (by simp [h])⟩
    · rw [← g1]; simp [h, SchedPC.todo]
    · intro s' l e
      cases e
      exact g3 _ _ h
  | schedNext s s' c rest r r' h hd hn hp =>
    have hio := g3 _ _ h
    have hget : (st.out.map Prod.snd)[st.completed.length]? = some c := by
      have := (g4 (by simp [h])).trans ⟨_, g1⟩
      rw [hd] at this
      obtain ⟨x, hx⟩ := this
      rw [← hx]
      simp
    have hio' : InOrder targets tasks s' (st.out ++ flat r) (st.completed ++ [c]) := .next hio hget hn
    obtain ⟨rel, hi, -⟩ := (hf.sched1 _ _ h).inv wft
    obtain ⟨-, wr, -⟩ := next_pres hi c hn
    have hfl : flat r' = flat r := flat_one wr hp
      (fun p hm => out_target wft h1 hio'.history p (List.mem_append_right _ hm))
    have e4 := g4 (by simp [h])
    have e5 := g5 (by simp [h])
    refine ⟨?_, .inr ⟨s', hio'⟩, ?_, ?_, ?_⟩
    · simp only [h, SchedPC.todo, List.append_nil, List.map_append] at g1 ⊢
      rw [← g1, hfl]; simp
    · intro s2 l e
      cases e
      exact hio'
    · intro _
      simpa [hd] using e4
    · intro _ he
      simpa [hd] using e5 he
  | schedRefused s s' c rest h hd hn =>
    refine ⟨by simpa [SchedPC.todo, h] using g1, g2, by simp, by simp, by simp⟩
  | schedClosed s h hd hcl =>
    refine ⟨by simpa [SchedPC.todo, h] using g1, g2, by simp, by simp, by simp⟩
  | targetStart q' rest h =>
    have := hns q' rest h
    refine ⟨by simpa using g1, g2, g3, ?_, ?_⟩
    · simpa [h, MainPC.held] using g4
    · intro e1 e2
      have := g5 e1 (by simp [h, MainPC.early])
      simp only [h, MainPC.held, List.append_nil, executed_append, executed_started] at this ⊢
      rw [this]
      congr 1
      by_cases e : q = q'
      · subst e
        rw [Function.update_self, hns q rest h]; rfl
      · rw [Function.update_of_ne e]
  | targetStartFail q' rest h =>
    have h0 : st.router = .notStarted := hc.router0.2 ⟨_, h⟩
    refine ⟨by simpa [h0, RouterPC.held] using g1, g2, g3, ?_, ?_⟩
    · simpa [h, MainPC.held] using g4
    · intro e1 e2
      simpa [h, MainPC.held] using g5 e1 (by simp [h, MainPC.early])
  | returnStartErr q' h =>
    refine ⟨g1, g2, g3, ?_, by simp [MainPC.early]⟩
    simpa [h, MainPC.held] using g4
  | targetsStarted h =>
    have h0 : st.router = .notStarted := hc.router0.2 ⟨_, h⟩
    refine ⟨by simpa [h0, RouterPC.held] using g1, g2, g3, ?_, ?_⟩
    · simpa [h, MainPC.held] using g4
    · intro e1 e2
      simpa [h, MainPC.held] using g5 e1 (by simp [h, MainPC.early])
  | routerRecv q' t rest h hrd =>
    exact ⟨by rw [← g1]; simp [h, hrd, RouterPC.held], g2, g3, g4, g5⟩
  | routerSend q' t h ht =>
    have := hhold q' t h
    subst this
    refine ⟨by rw [← g1]; simp [h, RouterPC.held], g2, g3, ?_, ?_⟩
    · intro e
      simp only [executed_append]
      exact (g4 e).trans (List.prefix_append _ _)
    · intro e1 e2
      have := g5 e1 e2
      rw [ht] at this
      simp only [executed_append, executed_start, Function.update_self, this]
      simp [TgtPC.task]
  | routerClosed h hrd hsc =>
    exact ⟨by simpa [h, RouterPC.held] using g1, g2, g3, g4, g5⟩
  | routerDone h ht =>
    exact ⟨by simpa [h, RouterPC.held] using g1, g2, g3, g4, g5⟩
  | handleEnd q' t ok h =>
    have := hrun q' t h
    subst this
    refine ⟨by simpa using g1, g2, g3, by simpa using g4, ?_⟩
    intro e1 e2
    have := g5 e1 e2
    rw [h] at this
    simp only [executed_append, executed_end, Function.update_self, this]
    simp [TgtPC.task]
  | report q' t ok h hcap =>
    have := hrep q' t ok h
    subst this
    refine ⟨g1, g2, g3, g4, ?_⟩
    intro e1 e2
    have := g5 e1 e2
    rw [h] at this
    simp only [Function.update_self, this]
    cases ok <;> simp [TgtPC.task]
  | targetClosed q' h hrt =>
    refine ⟨g1, g2, g3, g4, ?_⟩
    intro e1 e2
    have := g5 e1 e2
    simp only [this]
    congr 1
    by_cases e : q = q'
    · subst e
      rw [Function.update_self, h]; rfl
    · rw [Function.update_of_ne e]
  | targetStop q' h =>
    refine ⟨by simpa using g1, g2, g3, by simpa using g4, ?_⟩
    intro e1 e2
    have := g5 e1 e2
    simp only [executed_append, executed_stopped, this, List.append_nil]
    congr 1
    by_cases e : q = q'
    · subst e
      rw [Function.update_self, h]; rfl
    · rw [Function.update_of_ne e]
  | mainOk t rest h he =>
    have e5 := fun e => g5 e (by simp [h, MainPC.early])
    refine ⟨g1, g2, g3, ?_, ?_⟩
    · intro e
      rw [e5 e]
      simp [h, he, MainPC.held]
    · intro e _
      rw [e5 e]
      simp [h, he, MainPC.held]
  | mainSend t h hcap =>
    have e5 := fun e => g5 e (by simp [h, MainPC.early])
    refine ⟨g1, g2, g3, ?_, ?_⟩
    · intro e
      rw [e5 e]
      simp [h, MainPC.held]
    · intro e _
      rw [e5 e]
      simp [h, MainPC.held]
  | mainErr t rest h he =>
    refine ⟨g1, g2, g3, ?_, by simp [MainPC.early]⟩
    simpa [h, MainPC.held] using g4
  | mainEnd1 h he hrt =>
    refine ⟨g1, g2, g3, ?_, by simp [MainPC.early]⟩
    simpa [h, MainPC.held] using g4
  | mainDrain e t ok rest h he =>
    refine ⟨g1, g2, g3, g4, ?_⟩
    simp [h, MainPC.early]
  | mainReturn e h he hrt =>
    refine ⟨g1, g2, g3, ?_, by simp [MainPC.early]⟩
    simpa [h, MainPC.held] using g4

theorem Reach.ord (wf : targets.WF) (wft : tasks.WF) {q : Str} (h1 : OneTarget tasks q) (h : Reach targets tasks st) :
    Ord targets tasks q st := by
  induction h with
  | init order h =>
    constructor <;> simp [Runner.init, RouterPC.held, SchedPC.todo, MainPC.held, TgtPC.task]
  | step h hs ih => exact ih.step wf wft h1 h hs

/-! ## The property -/

/-- **C146.** All tasks of a runbook are of one target.  Compare two runs of it, each at any moment, with any
schedule, any outcomes of the tasks, and the entries of Go's maps listed in any order: the tasks the one has begun are, in
the same order, the first the other has begun, or the other way round. -/
theorem C146_same_order (wf : targets.WF) (wft : tasks.WF) (hq : targets.Perm targets')
    (ht : tasks.Perm tasks') {q : Str} (h1 : OneTarget tasks q) (h : Reach targets tasks st)
    (h' : Reach targets' tasks' st') :
    executed st.trace <+: executed st'.trace ∨ executed st'.trace <+: executed st.trace := by
  have wf' : targets'.WF := (hq.map Prod.fst).nodup_iff.1 wf
  have wft' : tasks'.WF := (ht.map Prod.fst).nodup_iff.1 wft
  have h1' := oneTarget_perm wft ht h1
  have o := h.ord wf wft h1
  have o' := h'.ord wf' wft' h1'
  have p : executed st.trace <+: st.out.map Prod.snd := ⟨_, o.queue⟩
  have p' : executed st'.trace <+: st'.out.map Prod.snd := ⟨_, o'.queue⟩
  rcases o.order with e | ⟨s, hi⟩
  · rw [e] at p
    rw [List.prefix_nil.1 p]
    exact .inl List.nil_prefix
  · rcases o'.order with e | ⟨s', hi'⟩
    · rw [e] at p'
      rw [List.prefix_nil.1 p']
      exact .inr List.nil_prefix
    · rcases Nat.le_total st.completed.length st'.completed.length with hl | hl
      · have := (hi.comparable wf wft hq ht h1 hi' hl).2
        exact List.prefix_or_prefix_of_prefix (p.trans (this.map _)) p'
      · have := (hi'.comparable wf' wft' hq.symm ht.symm h1' hi hl).2
        exact List.prefix_or_prefix_of_prefix p (p'.trans (this.map _))

theorem count_executed (tr : List Event) (t : Str) : (executed tr).count t = starts tr t := by
  induction tr with
  | nil => rfl
  | cons e tr ih =>
    have : executed (e :: tr) = executed [e] ++ executed tr := executed_append [e] tr
    rw [this, List.count_append, ih]
    unfold starts
    rw [List.countP_cons]
    cases e <;> simp [Event.isStart, Nat.add_comm, executed, List.count_cons]

/-- What a run that returns nil has begun: every task once. -/
theorem executed_all (wf : targets.WF) (wft : tasks.WF) (hv : ValidDeps tasks) (h : Reach targets tasks st)
    (hret : st.main = .returned none) : (executed st.trace).Perm tasks.keys := by
  have hd : (executed st.trace).Nodup := by
    rw [List.nodup_iff_count_le_one]
    intro t
    rw [count_executed]
    exact (C19_run_at_most_once_one_per_target wf wft h).1 t
  refine (List.perm_ext_iff_of_nodup hd wft).2 fun t => ?_
  rw [mem_executed]
  constructor
  · rintro ⟨q, hq⟩
    obtain ⟨task, h2, -⟩ := (C19_run_at_most_once_one_per_target wf wft h).2.1 q t hq
    exact GoMap.mem_keys_of_get? h2
  · intro ht
    obtain ⟨-, q, hq⟩ := C20_nil_means_all_succeeded_partial wf wft hv h hret t ht
    exact ⟨q, (h.inv wf wft).2.endTr q t true hq⟩

theorem validDeps_perm (wft : tasks.WF) (ht : tasks.Perm tasks') (hv : ValidDeps tasks) : ValidDeps tasks' := by
  have ha : After tasks = After tasks' := by
    funext t m
    unfold After
    rw [GoMap.get?_perm wft ht]
  refine ⟨fun t m h => ?_, ?_⟩
  · rw [← ha] at h
    exact (ht.map Prod.fst).mem_iff.1 (hv.closed t m h)
  · rw [← ha]
    exact hv.acyclic

theorem nothing_executed (wf : targets.WF) (wft : tasks.WF) (hv : ¬ ValidDeps tasks) (h : Reach targets tasks st) :
    executed st.trace = [] := by
  rw [List.eq_nil_iff_forall_not_mem]
  intro t ht
  obtain ⟨q, hq⟩ := mem_executed.1 ht
  have := (h.inv wf wft).2.runOut q t hq
  rw [nothing_out wf wft hv h] at this
  cases this

/-- **C146, successful runs.** Two runs of a runbook with one target that return nil have executed the same tasks, all
of them if the dependencies can be kept (C20), in the same order. -/
theorem C146_success (wf : targets.WF) (wft : tasks.WF) (hq : targets.Perm targets')
    (ht : tasks.Perm tasks') {q : Str} (h1 : OneTarget tasks q) (h : Reach targets tasks st)
    (h' : Reach targets' tasks' st') (hret : st.main = .returned none) (hret' : st'.main = .returned none) :
    executed st.trace = executed st'.trace := by
  have wf' : targets'.WF := (hq.map Prod.fst).nodup_iff.1 wf
  have wft' : tasks'.WF := (ht.map Prod.fst).nodup_iff.1 wft
  by_cases hv : ValidDeps tasks
  swap
  · have hv' : ¬ ValidDeps tasks' := fun hv' => hv (validDeps_perm wft' ht.symm hv')
    rw [nothing_executed wf wft hv h, nothing_executed wf' wft' hv' h']
  have hv' := validDeps_perm wft ht hv
  have hl : (executed st.trace).length = (executed st'.trace).length := by
    rw [(executed_all wf wft hv h hret).length_eq, (executed_all wf' wft' hv' h' hret').length_eq]
    exact (ht.map Prod.fst).length_eq
  rcases C146_same_order wf wft hq ht h1 h h' with p | p
  · exact p.eq_of_length hl
  · exact (p.eq_of_length hl.symm).symm

/-- If a task of a runbook with one target fails, it is the last that has begun. -/
theorem failed_last (wf : targets.WF) (wft : tasks.WF) {q : Str} (h1 : OneTarget tasks q) (h : Reach targets tasks st)
    {q' t : Str} (hf : .handleEnd q' t false ∈ st.trace) : ∃ l, executed st.trace = l ++ [t] := by
  have hon : ∀ q' t, .handleStart q' t ∈ st.trace → q' = q := by
    intro q' t hs
    obtain ⟨task, h2, h3⟩ := (C19_run_at_most_once_one_per_target wf wft h).2.1 q' t hs
    rw [← h3, h1 t task h2]
  have hq := hon q' t ((h.inv wf wft).2.endTr q' t false hf)
  subst hq
  obtain ⟨pre, post, e⟩ := List.append_of_mem hf
  have hpost : executed post = [] := by
    rw [List.eq_nil_iff_forall_not_mem]
    intro t' ht'
    obtain ⟨q2, hq2⟩ := mem_executed.1 ht'
    have := hon q2 t' (by rw [e]; simp [hq2])
    subst this
    exact C139_own_target wf wft h e t' hq2
  obtain ⟨st0, st1, h0, hs, e0, e1⟩ := h.split e
  have hr := step_handleEnd hs (by rw [e1, e0])
  obtain ⟨hst, hno⟩ := running_facts wf wft h0 hr
  rw [e0] at hst hno
  obtain ⟨a, b, rfl⟩ := List.append_of_mem hst
  have hb : executed b = [] := by
    rw [List.eq_nil_iff_forall_not_mem]
    intro t' ht'
    obtain ⟨q2, hq2⟩ := mem_executed.1 ht'
    have := hon q2 t' (by rw [e]; simp [hq2])
    subst this
    obtain ⟨b1, b2, rfl⟩ := List.append_of_mem hq2
    obtain ⟨ok, hok⟩ := (C19_run_at_most_once_one_per_target wf wft h0).2.2 (a ++ .handleStart q2 t :: b1) b2 q2 t'
      (by rw [e0]; simp) t (by simp)
    exact hno q2 ok (by
      simp only [List.mem_append, List.mem_cons] at hok ⊢
      tauto)
  refine ⟨executed a, ?_⟩
  have : st.trace = a ++ [.handleStart q' t] ++ b ++ [.handleEnd q' t false] ++ post := by rw [e]; simp
  rw [this]
  simp only [executed_append, executed_start, executed_end, hpost, hb, List.append_nil]

/-- **C146, the same again.** Let it be fixed which tasks succeed and which fail, and let all targets start.  Two runs of
a runbook with one target that return, return the same and have executed the same tasks in the same order. -/
theorem C146_same_run (wf : targets.WF) (wft : tasks.WF) (hq : targets.Perm targets')
    (ht : tasks.Perm tasks') {q : Str} (h1 : OneTarget tasks q) (outcome : Str → Bool) (h : Reach targets tasks st)
    (h' : Reach targets' tasks' st') (hk : Keeps outcome st) (hk' : Keeps outcome st') {e e' : Option RunErr}
    (hret : st.main = .returned e) (hret' : st'.main = .returned e') :
    e = e' ∧ executed st.trace = executed st'.trace := by
  have wf' : targets'.WF := (hq.map Prod.fst).nodup_iff.1 wf
  have wft' : tasks'.WF := (ht.map Prod.fst).nodup_iff.1 wft
  have h1' := oneTarget_perm wft ht h1
  have key : ∀ {targets targets' : GoMap Str Int} {tasks tasks' : GoMap Str Task} {st st' : St} {e' : Option RunErr},
      targets.WF → tasks.WF → targets'.WF → tasks'.WF → tasks.Perm tasks' →
      Reach targets tasks st → Reach targets' tasks' st' → Keeps outcome st →
      Keeps outcome st' → st.main = .returned none → st'.main = .returned e' → e' = none := by
    intro targets targets' tasks tasks' st st' e' wf wft wf' wft' ht h h' hk hk' hret hret'
    cases e' with
    | none => rfl
    | some x =>
      cases x with
      | start q => exact absurd ((C23_run_reports_failure wf' wft' h').1 q hret') (hk'.started q)
      | task t =>
        obtain ⟨q', hq'⟩ := (C23_run_reports_failure wf' wft' h').2.1 t hret'
        obtain ⟨task, h2, -⟩ := (C19_run_at_most_once_one_per_target wf' wft' h').2.1 q' t
          ((h'.inv wf' wft').2.endTr q' t false hq')
        have hv : ValidDeps tasks := by
          by_contra hv
          have hv' : ¬ ValidDeps tasks' := fun hv' => hv (validDeps_perm wft' ht.symm hv')
          have := mem_executed.2 ⟨q', (h'.inv wf' wft').2.endTr q' t false hq'⟩
          rw [nothing_executed wf' wft' hv' h'] at this
          cases this
        have hm : t ∈ tasks.keys := (ht.map Prod.fst).mem_iff.2 (GoMap.mem_keys_of_get? h2)
        obtain ⟨-, q2, hq2⟩ := C20_nil_means_all_succeeded_partial wf wft hv h hret t hm
        have := (hk.outcomes q2 t true hq2).trans (hk'.outcomes q' t false hq').symm
        cases this
  have hsome : ∀ {targets : GoMap Str Int} {tasks : GoMap Str Task} {st : St} {x : RunErr}, targets.WF → tasks.WF →
      OneTarget tasks q → Reach targets tasks st → Keeps outcome st → st.main = .returned (some x) →
      ∃ t l, x = .task t ∧ outcome t = false ∧ executed st.trace = l ++ [t] := by
    intro targets tasks st x wf wft h1 h hk hret
    cases x with
    | start q => exact absurd ((C23_run_reports_failure wf wft h).1 q hret) (hk.started q)
    | task t =>
      obtain ⟨q', hq'⟩ := (C23_run_reports_failure wf wft h).2.1 t hret
      obtain ⟨l, hl⟩ := failed_last wf wft h1 h hq'
      exact ⟨t, l, rfl, (hk.outcomes q' t false hq').symm, hl⟩
  -- what a run that has returned has begun has ended
  have hended : ∀ {targets targets' : GoMap Str Int} {tasks tasks' : GoMap Str Task} {st st' : St} {x x' : RunErr},
      targets.WF → tasks.WF → targets'.WF → tasks'.WF → OneTarget tasks q → OneTarget tasks' q →
      Reach targets tasks st → Reach targets' tasks' st' → Keeps outcome st →
      Keeps outcome st' → st.main = .returned (some x) → st'.main = .returned (some x') →
      executed st.trace <+: executed st'.trace → x = x' ∧ executed st.trace = executed st'.trace := by
    intro targets targets' tasks tasks' st st' x x' wf wft wf' wft' h1 h1' h h' hk hk' hret hret' hp
    obtain ⟨t, l, rfl, ho, hl⟩ := hsome wf wft h1 h hk hret
    obtain ⟨t', l', rfl, ho', hl'⟩ := hsome wf' wft' h1' h' hk' hret'
    have hs : t ∈ executed st'.trace := hp.subset (by rw [hl]; simp)
    obtain ⟨q2, hq2⟩ := mem_executed.1 hs
    have hend : .handleEnd q2 t false ∈ st'.trace := by
      rcases (h'.tinv wf' wft').progress q2 t hq2 with hr | ⟨ok, hr⟩
      · have hstop : st'.router = .stopped := by
          rcases (h'.inv wf' wft').1.ret _ hret' with ⟨_, e⟩ | e
          · cases e
          · exact e.1
        rcases (h'.inv wf' wft').1.allStopped hstop q2 with e | e <;> rw [hr] at e <;> cases e
      · have := hk'.outcomes q2 t ok hr
        rw [ho] at this
        rwa [this] at hr
    obtain ⟨l2, hl2⟩ := failed_last wf' wft' h1' h' hend
    have htt : t = t' := by
      rw [hl'] at hl2
      have := List.append_inj' hl2 rfl
      simpa using this.2.symm
    subst htt
    refine ⟨rfl, ?_⟩
    have hd : (executed st'.trace).Nodup := by
      rw [List.nodup_iff_count_le_one]
      intro t
      rw [count_executed]
      exact (C19_run_at_most_once_one_per_target wf' wft' h').1 t
    obtain ⟨z, hz⟩ := hp
    rcases List.eq_nil_or_concat z with rfl | ⟨z', y, rfl⟩
    · simpa using hz
    · rw [List.concat_eq_append, ← List.append_assoc, hl'] at hz
      obtain ⟨e1, e2⟩ := List.append_inj' hz rfl
      cases e2
      rw [hl', ← e1, hl] at hd
      exact absurd rfl ((List.nodup_append.1 hd).2.2 t (by simp) t (by simp))
  cases e with
  | none =>
    have := key wf wft wf' wft' ht h h' hk hk' hret hret'
    subst this
    exact ⟨rfl, C146_success wf wft hq ht h1 h h' hret hret'⟩
  | some x =>
    cases e' with
    | none =>
      have := key wf' wft' wf wft ht.symm h' h hk' hk hret' hret
      cases this
    | some x' =>
      rcases C146_same_order wf wft hq ht h1 h h' with p | p
      · obtain ⟨e1, e2⟩ := hended wf wft wf' wft' h1 h1' h h' hk hk' hret hret' p
        exact ⟨by rw [e1], e2⟩
      · obtain ⟨e1, e2⟩ := hended wf' wft' wf wft h1' h1 h' h hk' hk hret' hret p
        exact ⟨by rw [e1], e2.symm⟩

/-- The hypotheses are met: "a", "b" and "c" are of the target "x", which may have two tasks handed out at a time, and "c"
waits for "b".  A run returns nil, with the tasks in the order "a", "b", "c". -/
example : OneTarget [(b!"a", ⟨b!"x", []⟩), (b!"b", ⟨b!"x", []⟩), (b!"c", ⟨b!"x", [b!"b"]⟩)] b!"x" ∧
    ∃ st, Reach [(b!"x", 2)] [(b!"a", ⟨b!"x", []⟩), (b!"b", ⟨b!"x", []⟩), (b!"c", ⟨b!"x", [b!"b"]⟩)] st ∧
      Keeps (fun _ => true) st ∧ st.main = .returned none ∧ executed st.trace = [b!"a", b!"b", b!"c"] := by
  refine ⟨?_, ?_⟩
  · intro t task h
    have := GoMap.mem_of_get? h
    simp only [List.mem_cons, Prod.mk.injEq, List.not_mem_nil, or_false] at this
    rcases this with ⟨-, rfl⟩ | ⟨-, rfl⟩ | ⟨-, rfl⟩ <;> rfl
  · have r0 : Reach [(b!"x", 2)] [(b!"a", ⟨b!"x", []⟩), (b!"b", ⟨b!"x", []⟩), (b!"c", ⟨b!"x", [b!"b"]⟩)] _ :=
      Reach.init [b!"x"] (List.Perm.refl _)
    have r1 := Reach.step r0 (Step.targetStart _ b!"x" [] rfl)
    have r2 := Reach.step r1 (Step.targetsStarted _ rfl)
    have r3 := Reach.step r2 (Step.schedNew _ _ _ _ rfl rfl (List.Perm.refl _))
    have r4 := Reach.step r3 (Step.schedSend _ _ (b!"x", b!"a") [(b!"x", b!"b")] rfl (by decide))
    have r5 := Reach.step r4 (Step.schedSend _ _ (b!"x", b!"b") [] rfl (by decide))
    have r6 := Reach.step r5 (Step.routerRecv _ b!"x" b!"a" [(b!"x", b!"b")] rfl rfl)
    have r7 := Reach.step r6 (Step.routerSend _ b!"x" b!"a" rfl rfl)
    have r8 := Reach.step r7 (Step.handleEnd _ b!"x" b!"a" true rfl)
    have r9 := Reach.step r8 (Step.report _ b!"x" b!"a" true rfl (by decide))
    have r10 := Reach.step r9 (Step.routerRecv _ b!"x" b!"b" [] rfl rfl)
    have r11 := Reach.step r10 (Step.routerSend _ b!"x" b!"b" rfl rfl)
    have r12 := Reach.step r11 (Step.handleEnd _ b!"x" b!"b" true rfl)
    have r13 := Reach.step r12 (Step.report _ b!"x" b!"b" true rfl (by decide))
    have r14 := Reach.step r13 (Step.mainOk _ b!"a" _ rfl rfl)
    have r15 := Reach.step r14 (Step.mainSend _ b!"a" rfl (by decide))
    have r16 := Reach.step r15 (Step.mainOk _ b!"b" _ rfl rfl)
    have r17 := Reach.step r16 (Step.mainSend _ b!"b" rfl (by decide))
    have r18 := Reach.step r17 (Step.schedNext _ _ _ b!"a" [b!"b"] _ _ rfl rfl rfl (List.Perm.refl _))
    have r19 := Reach.step r18 (Step.schedNext _ _ _ b!"b" [] _ _ rfl rfl rfl (List.Perm.refl _))
    have r20 := Reach.step r19 (Step.schedSend _ _ (b!"x", b!"c") [] rfl (by decide))
    have r21 := Reach.step r20 (Step.routerRecv _ b!"x" b!"c" [] rfl rfl)
    have r22 := Reach.step r21 (Step.routerSend _ b!"x" b!"c" rfl rfl)
    have r23 := Reach.step r22 (Step.handleEnd _ b!"x" b!"c" true rfl)
    have r24 := Reach.step r23 (Step.report _ b!"x" b!"c" true rfl (by decide))
    have r25 := Reach.step r24 (Step.mainOk _ b!"c" _ rfl rfl)
    have r26 := Reach.step r25 (Step.mainSend _ b!"c" rfl (by decide))
    have r27 := Reach.step r26 (Step.schedRefused _ _ _ b!"c" [] rfl rfl rfl)
    have r28 := Reach.step r27 (Step.routerClosed _ rfl rfl rfl)
    have r29 := Reach.step r28 (Step.targetClosed _ b!"x" rfl (.inl rfl))
    have r30 := Reach.step r29 (Step.targetStop _ b!"x" rfl)
    have r31 := Reach.step r30 (Step.routerDone _ rfl (by
      intro q
      by_cases e : q = b!"x"
      · subst e; exact Or.inr rfl
      · simp [Function.update_of_ne e, Runner.init]))
    have r32 := Reach.step r31 (Step.mainEnd1 _ rfl rfl rfl)
    have r33 := Reach.step r32 (Step.mainReturn _ _ rfl rfl rfl)
    exact ⟨_, r33, ⟨by simp [Runner.init], by simp [Runner.init]⟩, rfl, rfl⟩

/-! ## Several targets -/

/-- **C146, not more.** The tasks of two targets begin in the one or in the other order. -/
theorem C146_needs_one_target : ∃ st st', Reach mixTargets mixTasks st ∧ Reach mixTargets mixTasks st' ∧
    executed st.trace = [b!"a", b!"b"] ∧ executed st'.trace = [b!"b", b!"a"] := by
  have r0 : Reach mixTargets mixTasks _ := Reach.init [b!"x", b!"y"] (List.Perm.refl _)
  have r1 := Reach.step r0 (Step.targetStart _ b!"x" [b!"y"] rfl)
  have r2 := Reach.step r1 (Step.targetStart _ b!"y" [] rfl)
  have r3 := Reach.step r2 (Step.targetsStarted _ rfl)
  have hs : ∃ st, Reach mixTargets mixTasks st ∧ executed st.trace = [b!"a", b!"b"] := by
    have s4 := Reach.step r3 (Step.schedNew _ _ _ _ rfl rfl (List.Perm.refl _))
    have s5 := Reach.step s4 (Step.schedSend _ _ (b!"x", b!"a") [(b!"y", b!"b")] rfl (by decide))
    have s6 := Reach.step s5 (Step.schedSend _ _ (b!"y", b!"b") [] rfl (by decide))
    have s7 := Reach.step s6 (Step.routerRecv _ b!"x" b!"a" [(b!"y", b!"b")] rfl rfl)
    have s8 := Reach.step s7 (Step.routerSend _ b!"x" b!"a" rfl rfl)
    have s9 := Reach.step s8 (Step.routerRecv _ b!"y" b!"b" [] rfl rfl)
    have s10 := Reach.step s9 (Step.routerSend _ b!"y" b!"b" rfl rfl)
    exact ⟨_, s10, rfl⟩
  have ht : ∃ st, Reach mixTargets mixTasks st ∧ executed st.trace = [b!"b", b!"a"] := by
    have t4 := Reach.step r3 (Step.schedNew _ _ _ [(b!"y", [b!"b"]), (b!"x", [b!"a"])] rfl rfl
      (List.Perm.swap _ _ _))
    have t5 := Reach.step t4 (Step.schedSend _ _ (b!"y", b!"b") [(b!"x", b!"a")] rfl (by decide))
    have t6 := Reach.step t5 (Step.schedSend _ _ (b!"x", b!"a") [] rfl (by decide))
    have t7 := Reach.step t6 (Step.routerRecv _ b!"y" b!"b" [(b!"x", b!"a")] rfl rfl)
    have t8 := Reach.step t7 (Step.routerSend _ b!"y" b!"b" rfl rfl)
    have t9 := Reach.step t8 (Step.routerRecv _ b!"x" b!"a" [] rfl rfl)
    have t10 := Reach.step t9 (Step.routerSend _ b!"x" b!"a" rfl rfl)
    exact ⟨_, t10, rfl⟩
  obtain ⟨st, a1, a2⟩ := hs
  obtain ⟨st', b1, b2⟩ := ht
  exact ⟨st, st', a1, b1, a2, b2⟩

end Verif.Runner
