import Verif.Runner.Ample
import Verif.Sched.Idle

/-!
# C169: a target without tasks is started and stopped by a run, and that is all
-/

namespace Verif.Runner
open Verif Dag Sched

/-! ## Specification -/

/-- It is this target that is started, fails to start, is stopped or is given a task. -/
def Event.isOf (q : Str) : Event → Bool
  | .started q' => q' = q
  | .startFailed q' => q' = q
  | .handleStart q' _ => q' = q
  | .handleEnd q' _ _ => q' = q
  | .stopped q' => q' = q

/-- What happens to the other targets. -/
def others (q : Str) (tr : List Event) : List Event := tr.filter (fun e => !e.isOf q)

/-! ## Lemmas -/

variable {targets : GoMap Str Int} {tasks : GoMap Str Task} {st st' : St} {q : Str} {n : Int}

/-- Scheduler goroutines that are at the same place and whose schedulers answer the same. -/
inductive PSame : SchedPC → SchedPC → Prop
  | start : PSame .start .start
  | stopped : PSame .stopped .stopped
  | sending {s s' : Scheduler} (h : AnswersSame s s') (todo : List (Str × Str)) : PSame (.sending s todo) (.sending s' todo)

theorem new_error_any (targets targets' : GoMap Str Int) {e : DagError} (h : new targets tasks = some (.error e)) :
    new targets' tasks = some (.error e) := by
  unfold new at h ⊢
  cases e1 : newDependencyGraph (tasks.map (fun p => (p.1, p.2.after))) with
  | none => rw [e1] at h; simp at h
  | some x =>
    cases x with
    | error e' => rw [e1] at h; simpa using h
    | ok g => rw [e1] at h; simp at h

def MainPC.without (q : Str) : MainPC → MainPC
  | .starting rest => .starting (rest.filter (fun q' => q' ≠ q))
  | .failing q' => .failing q'
  | .loop1 => .loop1
  | .sendDone t => .sendDone t
  | .loop2 e => .loop2 e
  | .returned e => .returned e

/-- The state without the target. -/
def St.erase (q : Str) (p : SchedPC) (st : St) : St :=
  { st with sched := p, main := st.main.without q, tgt := Function.update st.tgt q .notStarted, trace := others q st.trace }

/-- The target has no task. -/
def Quiet (q : Str) (st : St) : Prop := ∀ t ok, st.tgt q ≠ .running t ∧ st.tgt q ≠ .reporting t ok

theorem others_snoc (tr : List Event) (e : Event) : others q (tr ++ [e]) = if e.isOf q then others q tr else others q tr ++ [e] := by
  unfold others
  rw [List.filter_append]
  by_cases h : e.isOf q = true <;> simp [h]

theorem erase_sim (wfq : GoMap.WF (targets ++ [(q, n)])) (wf : targets.WF) (wft : tasks.WF) (hq : q ∉ targets.keys)
    (hno : ∀ t task, tasks.get? t = some task → task.target ≠ q) (hn : 0 ≤ n) (hv : ValidTargets targets tasks)
    (hlim : ∀ q n, targets.get? q = some n → 1 ≤ n) (hr : Reach (targets ++ [(q, n)]) tasks st)
    (hs : Step (targets ++ [(q, n)]) tasks st st') {p : SchedPC} (hp : PSame st.sched p) (hi : Quiet q st)
    (hf : .startFailed q ∉ st'.trace) (hr' : Reach targets tasks (st.erase q p)) :
    ∃ p', (st'.erase q p' = st.erase q p ∨ Step targets tasks (st.erase q p) (st'.erase q p')) ∧ PSame st'.sched p' ∧
      Quiet q st' := by
  obtain ⟨-, c1, c2, c3⟩ := C24_channels_never_overflow wf wft hv hlim hr'
  have hst' := hr.step hs
  have hcom : ∀ (q' : Str) (x : TgtPC), q' ≠ q → Function.update (Function.update st.tgt q' x) q .notStarted =
      Function.update (Function.update st.tgt q .notStarted) q' x := fun q' x h => Function.update_comm h ..
  have hqu : ∀ (q' : Str) (x : TgtPC), q' ≠ q → Quiet q { st with tgt := Function.update st.tgt q' x } := by
    intro q' x h t ok
    simp only [Function.update_of_ne (Ne.symm h)]
    exact hi t ok
  cases hs with
  | schedNewErr e h hn' =>
    rw [h] at hp; cases hp
    exact ⟨_, .inr (.schedNewErr _ e rfl (new_error_any _ _ hn')), .stopped, hi⟩
  | schedNew s r r' h hn' hperm =>
    rw [h] at hp; cases hp
    obtain ⟨s', a, b⟩ := (new_idle wft hq hno hn).2 s hn'
    exact ⟨_, .inr (.schedNew _ s' r r' rfl a hperm), .sending b _, hi⟩
  | schedSend s x todo h hc =>
    rw [h] at hp
    cases hp with
    | sending ha _ =>
      exact ⟨_, .inr (.schedSend _ _ x todo rfl (c1 _ x todo rfl)), .sending ha _, hi⟩
  | schedNext s s1 c rest r r' h hd hn' hperm =>
    rw [h] at hp
    cases hp with
    | @sending _ s' ha _ =>
      obtain ⟨a, b⟩ := ha.next c
      rw [hn'] at a b
      exact ⟨_, .inr (.schedNext _ s' (s'.next c).1 c rest r r' rfl hd (Prod.ext rfl a) hperm), .sending b _, hi⟩
  | schedRefused s s1 c rest h hd hn' =>
    rw [h] at hp
    cases hp with
    | @sending _ s' ha _ =>
      obtain ⟨a, b⟩ := ha.next c
      rw [hn'] at a b
      exact ⟨_, .inr (.schedRefused _ s' (s'.next c).1 c rest rfl hd (Prod.ext rfl a)), .stopped, hi⟩
  | schedClosed s h hd hc =>
    rw [h] at hp
    cases hp with
    | @sending _ s' ha _ => exact ⟨_, .inr (.schedClosed _ s' rfl hd hc), .stopped, hi⟩
  | targetStart q' rest h =>
    by_cases e : q' = q
    · subst e
      refine ⟨p, .inl ?_, hp, fun t ok => by simp⟩
      simp [St.erase, h, MainPC.without, others_snoc, Event.isOf]
    · refine ⟨p, .inr ?_, hp, hqu q' _ e⟩
      have := Step.targetStart (targets := targets) (tasks := tasks) (st.erase q p) q' (rest.filter (fun q' => q' ≠ q))
        (by simp [St.erase, h, MainPC.without, e])
      simpa [St.erase, MainPC.without, hcom _ _ e, others_snoc, Event.isOf, e] using this
  | targetStartFail q' rest h =>
    have e : q' ≠ q := by rintro rfl; simp at hf
    refine ⟨p, .inr ?_, hp, hi⟩
    have := Step.targetStartFail (targets := targets) (tasks := tasks) (st.erase q p) q' (rest.filter (fun q' => q' ≠ q))
      (by simp [St.erase, h, MainPC.without, e])
    simpa [St.erase, MainPC.without, others_snoc, Event.isOf, e] using this
  | returnStartErr q' h => exact ⟨p, .inr (.returnStartErr (st.erase q p) q' (by simp [St.erase, h, MainPC.without])), hp, hi⟩
  | targetsStarted h => exact ⟨p, .inr (.targetsStarted (st.erase q p) (by simp [St.erase, h, MainPC.without])), hp, hi⟩
  | routerRecv q' t rest h hr' => exact ⟨p, .inr (.routerRecv (st.erase q p) q' t rest h hr'), hp, hi⟩
  | routerSend q' t h ht' =>
    have e : q' ≠ q := by
      rintro rfl
      obtain ⟨task, h1, h2⟩ := (C19_run_at_most_once_one_per_target wfq wft hst').2.1 q' t (by simp)
      exact hno t task h1 h2
    refine ⟨p, .inr ?_, hp, hqu q' _ e⟩
    have := Step.routerSend (targets := targets) (tasks := tasks) (st.erase q p) q' t h
      (by simp [St.erase, Function.update_of_ne e, ht'])
    simpa [St.erase, hcom _ _ e, others_snoc, Event.isOf, e] using this
  | routerClosed h hrd hs =>
    rw [hs] at hp; cases hp
    exact ⟨_, .inr (.routerClosed (st.erase q .stopped) h hrd rfl), hs ▸ .stopped, hi⟩
  | routerDone h ht' =>
    refine ⟨p, .inr (.routerDone (st.erase q p) h (fun q' => ?_)), hp, hi⟩
    by_cases e : q' = q
    · subst e; left; simp [St.erase]
    · simpa [St.erase, Function.update_of_ne e] using ht' q'
  | handleEnd q' t ok h =>
    have e : q' ≠ q := by rintro rfl; exact (hi t ok).1 h
    refine ⟨p, .inr ?_, hp, hqu q' _ e⟩
    have := Step.handleEnd (targets := targets) (tasks := tasks) (st.erase q p) q' t ok
      (by simp [St.erase, Function.update_of_ne e, h])
    simpa [St.erase, hcom _ _ e, others_snoc, Event.isOf, e] using this
  | report q' t ok h hc =>
    have e : q' ≠ q := by rintro rfl; exact (hi t ok).2 h
    refine ⟨p, .inr ?_, hp, hqu q' _ e⟩
    have h' : (st.erase q p).tgt q' = .reporting t ok := by simp [St.erase, Function.update_of_ne e, h]
    have := Step.report (targets := targets) (tasks := tasks) (st.erase q p) q' t ok h' (c2 q' t ok h')
    simpa [St.erase, hcom _ _ e] using this
  | targetClosed q' h hr' =>
    by_cases e : q' = q
    · subst e
      exact ⟨p, .inl (by simp [St.erase]), hp, fun t ok => by simp⟩
    · refine ⟨p, .inr ?_, hp, hqu q' _ e⟩
      have := Step.targetClosed (targets := targets) (tasks := tasks) (st.erase q p) q'
        (by simp [St.erase, Function.update_of_ne e, h]) hr'
      simpa [St.erase, hcom _ _ e] using this
  | targetStop q' h =>
    by_cases e : q' = q
    · subst e
      exact ⟨p, .inl (by simp [St.erase, others_snoc, Event.isOf]), hp, fun t ok => by simp⟩
    · refine ⟨p, .inr ?_, hp, hqu q' _ e⟩
      have := Step.targetStop (targets := targets) (tasks := tasks) (st.erase q p) q'
        (by simp [St.erase, Function.update_of_ne e, h])
      simpa [St.erase, hcom _ _ e, others_snoc, Event.isOf, e] using this
  | mainOk t rest h he => exact ⟨p, .inr (.mainOk (st.erase q p) t rest (by simp [St.erase, h, MainPC.without]) he), hp, hi⟩
  | mainSend t h hc =>
    have h' : (st.erase q p).main = .sendDone t := by simp [St.erase, h, MainPC.without]
    exact ⟨p, .inr (.mainSend (st.erase q p) t h' (c3 t h')), hp, hi⟩
  | mainErr t rest h he => exact ⟨p, .inr (.mainErr (st.erase q p) t rest (by simp [St.erase, h, MainPC.without]) he), hp, hi⟩
  | mainEnd1 h he hr' => exact ⟨p, .inr (.mainEnd1 (st.erase q p) (by simp [St.erase, h, MainPC.without]) he hr'), hp, hi⟩
  | mainDrain e t ok rest h he =>
    have := Step.mainDrain (targets := targets) (tasks := tasks) (st.erase q p) e t ok rest
      (by simp [St.erase, h, MainPC.without]) he
    exact ⟨p, .inr this, hp, hi⟩
  | mainReturn e h he hr' =>
    exact ⟨p, .inr (.mainReturn (st.erase q p) e (by simp [St.erase, h, MainPC.without]) he hr'), hp, hi⟩

theorem step_prefix {targets : GoMap Str Int} (hs : Step targets tasks st st') : st.trace <+: st'.trace := by
  cases hs <;> first | exact List.prefix_refl _ | exact List.prefix_append _ _

theorem erase_reach (wfq : GoMap.WF (targets ++ [(q, n)])) (wf : targets.WF) (wft : tasks.WF) (hq : q ∉ targets.keys)
    (hno : ∀ t task, tasks.get? t = some task → task.target ≠ q) (hn : 0 ≤ n) (hv : ValidTargets targets tasks)
    (hlim : ∀ q n, targets.get? q = some n → 1 ≤ n) (h : Reach (targets ++ [(q, n)]) tasks st)
    (hf : .startFailed q ∉ st.trace) :
    ∃ p, Reach targets tasks (st.erase q p) ∧ PSame st.sched p ∧ Quiet q st := by
  induction h with
  | init order ho =>
    refine ⟨.start, ?_, .start, fun t ok => by simp [init]⟩
    have := Reach.init (targets := targets) (tasks := tasks) (order.filter (fun q' => q' ≠ q)) (by
      refine (ho.filter _).trans (.of_eq ?_)
      simp only [GoMap.keys, List.map_append, List.filter_append]
      have : targets.keys.filter (fun q' => q' ≠ q) = targets.keys :=
        List.filter_eq_self.mpr (fun q' h => by simpa using fun e : q' = q => hq (e ▸ h))
      simpa [GoMap.keys] using this)
    simpa [St.erase, init, MainPC.without, others] using this
  | step h hs ih =>
    obtain ⟨p, a, b, c⟩ := ih (fun x => hf ((step_prefix hs).subset x))
    obtain ⟨p', d, e, f⟩ := erase_sim wfq wf wft hq hno hn hv hlim h hs b c hf a
    refine ⟨p', ?_, e, f⟩
    rcases d with d | d
    · rw [d]; exact a
    · exact a.step d

/-- The state with the target. -/
def St.with (q : Str) (p : SchedPC) (x : TgtPC) (tr : List Event) (st : St) : St :=
  { st with sched := p, tgt := Function.update st.tgt q x, trace := tr }

/-- What is known of a run without the target. -/
structure Absent (q : Str) (st : St) : Prop where
  tgt : st.tgt q = .notStarted
  main : ∀ rest, st.main = .starting rest → q ∉ rest ∧ st.router = .notStarted

theorem absent_step {targets : GoMap Str Int} (h : Absent q st) (hs : Step targets tasks st st') : Absent q st' := by
  have h1 := h.tgt
  have h2 := h.main
  cases hs <;> constructor <;> simp_all [Function.update_apply] <;> grind

/-- The run with the target is as far as the one without. -/
structure Beside (targets : GoMap Str Int) (tasks : GoMap Str Task) (q : Str) (n : Int) (st : St) : Prop where
  absent : Absent q st
  ex : ∃ p x tr, Reach (targets ++ [(q, n)]) tasks (st.with q p x tr) ∧ PSame st.sched p ∧ others q tr = st.trace ∧
    .startFailed q ∉ tr ∧ (st.router ≠ .stopped → x = .idle) ∧ (x = .idle ∨ x = .stopped)

theorem beside_sim (wfq : GoMap.WF (targets ++ [(q, n)])) (wft : tasks.WF) (hq : q ∉ targets.keys)
    (hno : ∀ t task, tasks.get? t = some task → task.target ≠ q) (hn : 0 ≤ n)
    (hv : ValidTargets (targets ++ [(q, n)]) tasks) (hlim : ∀ q' m, (targets ++ [(q, n)] : GoMap Str Int).get? q' = some m → 1 ≤ m)
    (hs : Step targets tasks st st') (hb : Beside targets tasks q n st) : Beside targets tasks q n st' := by
  obtain ⟨hab, p, x, tr, hr, hp, htr, hf, hx, hx'⟩ := hb
  refine ⟨absent_step hab hs, ?_⟩
  obtain ⟨-, c1, c2, c3⟩ := C24_channels_never_overflow wfq wft hv hlim hr
  have hne : ∀ q', st.tgt q' ≠ .notStarted → q' ≠ q := fun q' h e => h (e ▸ hab.tgt)
  have hcom : ∀ (q' : Str) (y : TgtPC), q' ≠ q → Function.update (Function.update st.tgt q' y) q x =
      Function.update (Function.update st.tgt q x) q' y := fun q' y h => Function.update_comm h ..
  have htr' : ∀ e : Event, e.isOf q = false → others q (tr ++ [e]) = st.trace ++ [e] := by
    intro e he; rw [others_snoc, he, htr]; rfl
  have hf' : ∀ e : Event, e.isOf q = false → .startFailed q ∉ tr ++ [e] := by
    intro e he hm
    rcases List.mem_append.mp hm with hm | hm
    · exact hf hm
    · rw [← List.mem_singleton.mp hm] at he; simp [Event.isOf] at he
  have hnot : ∀ rest, st.main = .starting rest → x = .idle := fun rest h => hx (by rw [(hab.main rest h).2]; simp)
  cases hs with
  | schedNewErr e h hn' =>
    rw [h] at hp; cases hp
    exact ⟨_, x, tr, hr.step (.schedNewErr _ e rfl (new_error_any _ _ hn')), .stopped, htr, hf, hx, hx'⟩
  | schedNew s r r' h hn' hperm =>
    rw [h] at hp; cases hp
    obtain ⟨s', a, b⟩ := (new_idle wft hq hno hn).1 s hn'
    exact ⟨_, x, tr, hr.step (.schedNew _ s' r r' rfl a hperm), .sending b _, htr, hf, hx, hx'⟩
  | schedSend s y todo h hc =>
    rw [h] at hp
    cases hp with
    | sending ha _ =>
      exact ⟨_, x, tr, hr.step (.schedSend _ _ y todo rfl (c1 _ y todo rfl)), .sending ha _, htr, hf, hx, hx'⟩
  | schedNext s s1 c rest r r' h hd hn' hperm =>
    rw [h] at hp
    cases hp with
    | @sending _ s' ha _ =>
      obtain ⟨a, b⟩ := ha.next c
      rw [hn'] at a b
      exact ⟨_, x, tr, hr.step (.schedNext _ s' (s'.next c).1 c rest r r' rfl hd (Prod.ext rfl a) hperm), .sending b _,
        htr, hf, hx, hx'⟩
  | schedRefused s s1 c rest h hd hn' =>
    rw [h] at hp
    cases hp with
    | @sending _ s' ha _ =>
      obtain ⟨a, b⟩ := ha.next c
      rw [hn'] at a b
      exact ⟨_, x, tr, hr.step (.schedRefused _ s' (s'.next c).1 c rest rfl hd (Prod.ext rfl a)), .stopped, htr, hf, hx, hx'⟩
  | schedClosed s h hd hc =>
    rw [h] at hp
    cases hp with
    | @sending _ s' ha _ => exact ⟨_, x, tr, hr.step (.schedClosed _ s' rfl hd hc), .stopped, htr, hf, hx, hx'⟩
  | targetStart q' rest h =>
    have e : q' ≠ q := fun e => (hab.main _ h).1 (by simp [e])
    have he : Event.isOf q (.started q') = false := by simp [Event.isOf, e]
    have := hr.step (.targetStart _ q' rest h)
    exact ⟨p, x, tr ++ [.started q'], by simpa [St.with, hcom _ _ e] using this, hp, htr' _ he, hf' _ he, hx, hx'⟩
  | targetStartFail q' rest h =>
    have e : q' ≠ q := fun e => (hab.main _ h).1 (by simp [e])
    have he : Event.isOf q (.startFailed q') = false := by simp [Event.isOf, e]
    exact ⟨p, x, tr ++ [.startFailed q'], hr.step (.targetStartFail (st.with q p x tr) q' rest h), hp, htr' _ he, hf' _ he,
      fun _ => hnot _ h, hx'⟩
  | returnStartErr q' h => exact ⟨p, x, tr, hr.step (.returnStartErr _ q' h), hp, htr, hf, hx, hx'⟩
  | targetsStarted h => exact ⟨p, x, tr, hr.step (.targetsStarted _ h), hp, htr, hf, fun _ => hnot _ h, hx'⟩
  | routerRecv q' t rest h hrd =>
    exact ⟨p, x, tr, hr.step (.routerRecv _ q' t rest h hrd), hp, htr, hf, fun _ => hx (by simp [h]), hx'⟩
  | routerSend q' t h ht' =>
    have e := hne q' (by simp [ht'])
    have he : Event.isOf q (.handleStart q' t) = false := by simp [Event.isOf, e]
    have := hr.step (.routerSend _ q' t h (by simp [St.with, Function.update_of_ne e, ht']))
    exact ⟨p, x, tr ++ [.handleStart q' t], by simpa [St.with, hcom _ _ e] using this, hp, htr' _ he, hf' _ he,
      fun _ => hx (by simp [h]), hx'⟩
  | routerClosed h hrd hs =>
    rw [hs] at hp; cases hp
    exact ⟨.stopped, x, tr, hr.step (.routerClosed _ h hrd rfl), hs ▸ .stopped, htr, hf, fun _ => hx (by simp [h]), hx'⟩
  | routerDone h ht' =>
    have hx0 : x = .idle := hx (by simp [h])
    subst hx0
    have r1 := hr.step (.targetClosed _ q (by simp [St.with]) (.inl h))
    have r2 := r1.step (.targetStop _ q (by simp))
    have r3 := r2.step (.routerDone _ h (fun q' => by
      by_cases e : q' = q
      · subst e; right; simp
      · simpa [St.with, Function.update_of_ne e] using ht' q'))
    refine ⟨p, .stopped, tr ++ [.stopped q], by simpa [St.with] using r3, hp, ?_, by simpa using hf, by simp, .inr rfl⟩
    rw [others_snoc, htr]; simp [Event.isOf]
  | handleEnd q' t ok h =>
    have e := hne q' (by simp [h])
    have he : Event.isOf q (.handleEnd q' t ok) = false := by simp [Event.isOf, e]
    have := hr.step (.handleEnd _ q' t ok (by simp [St.with, Function.update_of_ne e, h]))
    exact ⟨p, x, tr ++ [.handleEnd q' t ok], by simpa [St.with, hcom _ _ e] using this, hp, htr' _ he, hf' _ he, hx, hx'⟩
  | report q' t ok h hc =>
    have e := hne q' (by simp [h])
    have h' : (st.with q p x tr).tgt q' = .reporting t ok := by simp [St.with, Function.update_of_ne e, h]
    have := hr.step (.report _ q' t ok h' (c2 q' t ok h'))
    exact ⟨p, x, tr, by simpa [St.with, hcom _ _ e] using this, hp, htr, hf, hx, hx'⟩
  | targetClosed q' h hrd =>
    have e := hne q' (by simp [h])
    have := hr.step (.targetClosed _ q' (by simp [St.with, Function.update_of_ne e, h]) hrd)
    exact ⟨p, x, tr, by simpa [St.with, hcom _ _ e] using this, hp, htr, hf, hx, hx'⟩
  | targetStop q' h =>
    have e := hne q' (by simp [h])
    have he : Event.isOf q (.stopped q') = false := by simp [Event.isOf, e]
    have := hr.step (.targetStop _ q' (by simp [St.with, Function.update_of_ne e, h]))
    exact ⟨p, x, tr ++ [.stopped q'], by simpa [St.with, hcom _ _ e] using this, hp, htr' _ he, hf' _ he, hx, hx'⟩
  | mainOk t rest h he => exact ⟨p, x, tr, hr.step (.mainOk _ t rest h he), hp, htr, hf, hx, hx'⟩
  | mainSend t h hc => exact ⟨p, x, tr, hr.step (.mainSend _ t h (c3 t h)), hp, htr, hf, hx, hx'⟩
  | mainErr t rest h he => exact ⟨p, x, tr, hr.step (.mainErr _ t rest h he), hp, htr, hf, hx, hx'⟩
  | mainEnd1 h he hrd => exact ⟨p, x, tr, hr.step (.mainEnd1 _ h he hrd), hp, htr, hf, hx, hx'⟩
  | mainDrain e t ok rest h he => exact ⟨p, x, tr, hr.step (.mainDrain _ e t ok rest h he), hp, htr, hf, hx, hx'⟩
  | mainReturn e h he hrd => exact ⟨p, x, tr, hr.step (.mainReturn _ e h he hrd), hp, htr, hf, hx, hx'⟩

theorem beside_reach (wfq : GoMap.WF (targets ++ [(q, n)])) (wft : tasks.WF) (hq : q ∉ targets.keys)
    (hno : ∀ t task, tasks.get? t = some task → task.target ≠ q) (hn : 0 ≤ n)
    (hv : ValidTargets (targets ++ [(q, n)]) tasks) (hlim : ∀ q' m, (targets ++ [(q, n)] : GoMap Str Int).get? q' = some m → 1 ≤ m)
    (h : Reach targets tasks st) : Beside targets tasks q n st := by
  induction h with
  | init order ho =>
    have r0 : Reach (targets ++ [(q, n)]) tasks _ := Reach.init (q :: order) (by
      simp only [GoMap.keys, List.map_append, List.map_cons, List.map_nil]
      exact (List.Perm.cons q ho).trans (List.perm_append_singleton q _).symm)
    have r1 := r0.step (.targetStart _ q order rfl)
    refine ⟨⟨rfl, fun rest h => ?_⟩, .start, .idle, [.started q], r1, .start, ?_, by simp, fun _ => rfl, .inl rfl⟩
    · cases h
      exact ⟨fun hm => hq (ho.mem_iff.mp hm), rfl⟩
    · simp [others, Event.isOf, init]
  | step _ hs ih => exact beside_sim wfq wft hq hno hn hv hlim hs ih

/-! ## C169 -/

/-- **C169, runs.** A target that no task has is added to a runbook as the parser returns them.  What a run of the new one does
and returns, unless the new target fails to start, is but for the new target what a run of the old one may do and return; and
what a run of the old one does and returns, a run of the new one may do and return, but for the new target. -/
theorem C169_runs (wf : targets.WF) (wft : tasks.WF) (hq : q ∉ targets.keys)
    (hno : ∀ t task, tasks.get? t = some task → task.target ≠ q) (hn : 1 ≤ n) (hv : ValidTargets targets tasks)
    (hlim : ∀ q n, targets.get? q = some n → 1 ≤ n) (ret : Option (Option RunErr)) :
    (∀ tr, Observed (targets ++ [(q, n)]) tasks tr ret → .startFailed q ∉ tr → Observed targets tasks (others q tr) ret) ∧
    ∀ tr, Observed targets tasks tr ret →
      ∃ tr', Observed (targets ++ [(q, n)]) tasks tr' ret ∧ others q tr' = tr ∧ .startFailed q ∉ tr' := by
  have wfq : GoMap.WF (targets ++ [(q, n)]) := by
    simp only [GoMap.WF, GoMap.keys, List.map_append, List.map_cons, List.map_nil] at wf ⊢
    rw [List.nodup_append]
    refine ⟨wf, by simp, ?_⟩
    intro a ha b hb e
    rw [List.mem_singleton.mp hb] at e
    exact hq (e ▸ ha)
  constructor
  · rintro tr ⟨st, h, rfl, h2⟩ hf
    obtain ⟨p, a, -, -⟩ := erase_reach wfq wf wft hq hno (by omega) hv hlim h hf
    refine ⟨_, a, rfl, ?_⟩
    cases ret with
    | none =>
      intro e he
      cases hm : st.main <;> simp [St.erase, hm, MainPC.without] at he
      exact h2 _ hm
    | some e => simp only at h2 ⊢; simp [St.erase, h2, MainPC.without]
  · rintro tr ⟨st, h, rfl, h2⟩
    have hget : ∀ q' m, targets.get? q' = some m → (targets ++ [(q, n)] : GoMap Str Int).get? q' = some m := by
      intro q' m hm
      exact GoMap.get?_of_mem wfq (List.mem_append_left _ (GoMap.mem_of_get? hm))
    have hb := beside_reach (n := n) wfq wft hq hno (by omega)
      (fun t task h => by obtain ⟨m, h1, h2⟩ := hv t task h; exact ⟨m, hget _ _ h1, h2⟩)
      (fun q' m hm => by
        rcases List.mem_append.mp (GoMap.mem_of_get? hm) with hm | hm
        · exact hlim q' m (GoMap.get?_of_mem wf hm)
        · simp only [List.mem_singleton, Prod.mk.injEq] at hm; omega) h
    obtain ⟨-, p, x, tr, hr, -, htr, hf, -⟩ := hb
    exact ⟨tr, ⟨_, hr, rfl, h2⟩, htr, hf⟩

/-- C169 is about something: the target "y" has no tasks; it is started, and then "x" begins one. -/
example : (∀ t task, GoMap.get? [(b!"a", (⟨b!"x", []⟩ : Task))] t = some task → task.target ≠ b!"y") ∧
    Observed ([(b!"x", 1)] ++ [(b!"y", 3)]) [(b!"a", ⟨b!"x", []⟩)]
      [.started b!"y", .started b!"x", .handleStart b!"x" b!"a"] none := by
  constructor
  · intro t task h
    have := GoMap.mem_of_get? h
    simp only [List.mem_cons, Prod.mk.injEq, List.not_mem_nil, or_false] at this
    rw [this.2]; decide
  · refine ⟨_, (((((((Reach.init [b!"y", b!"x"] (by decide)).step (.targetStart _ _ _ rfl)).step (.targetStart _ _ _ rfl)).step
      (.targetsStarted _ rfl)).step (.schedNew _ _ _ _ rfl rfl (.refl _))).step
      (.schedSend _ _ _ _ rfl (by decide +kernel))).step
      (.routerRecv _ _ _ _ rfl rfl)).step (.routerSend _ _ _ rfl rfl), rfl, by simp⟩

end Verif.Runner
