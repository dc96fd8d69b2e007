import Verif.Runner.Props
import Verif.Runner.Examples

/-!
# C26: which tasks are executed although a target could not be started

The scheduler and the targets started before go on; what it hands out first is executed, and nothing else, because
no completion is passed on to it.
-/

namespace Verif.Runner
open Verif Dag Sched

variable {targets : GoMap Str Int} {tasks : GoMap Str Task}

/-- As long as not every target has been started, the scheduler has heard of no completion. -/
structure Early (targets : GoMap Str Int) (tasks : GoMap Str Task) (st : St) : Prop where
  done : st.main.allStarted = false → st.done = []
  sched : st.main.allStarted = false → ∀ s l, st.sched = .sending s l → ∃ r, new targets tasks = some (.ok (s, r))
  out : st.main.allStarted = false → st.out = [] ∨
    ∃ s r, new targets tasks = some (.ok (s, r)) ∧ st.out = flat r
  fresh : st.sched = .start → st.out = []
  failed : ∀ q, st.main = .failing q ∨ st.main = .returned (some (.start q)) → st.tgt q = .notStarted
  ran : ∀ q t, .handleStart q t ∈ st.trace → st.tgt q ≠ .notStarted

theorem Early.init (order : List Str) : Early targets tasks (init order) := by
  constructor <;> simp [Runner.init]

theorem allStarted_returned (e : Option Str) : (MainPC.returned (e.map .task)).allStarted = true := by
  cases e <;> rfl

theorem Early.step {st st' : St} (hc : Ctl targets st) (h : Early targets tasks st)
    (hs : Step targets tasks st st') : Early targets tasks st' := by
  obtain ⟨h1, h2, h3, h4, h5, h6⟩ := h
  have h7 := hc.next_notStarted
  clear hc
  constructor
  · clear h2 h3 h4 h5 h6 h7
    cases hs <;> grind [MainPC.allStarted, allStarted_returned]
  · clear h3 h4 h5 h6 h7
    cases hs <;> grind [MainPC.allStarted, allStarted_returned]
  · clear h2 h5 h6 h7
    cases hs <;> grind [MainPC.allStarted, allStarted_returned]
  · clear h1 h2 h3 h5 h6 h7
    cases hs <;> grind
  · clear h1 h2 h3 h4 h6
    cases hs <;> grind [MainPC.allStarted, Option.map_eq_some_iff]
  · clear h1 h2 h3 h4 h5
    cases hs <;> grind

theorem Reach.early (wf : targets.WF) (wft : tasks.WF) {st : St} (h : Reach targets tasks st) :
    Early targets tasks st := by
  induction h with
  | init order _ => exact .init order
  | step h hs ih => exact ih.step (h.inv wf wft).1 hs

/-- The tasks of a started target that come first are all executed, whatever the main goroutine does. -/
theorem executes (wf : targets.WF) (wft : tasks.WF) (hv : ValidTargets targets tasks)
    (hlim : ∀ q n, targets.get? q = some n → 1 ≤ n) {q t : Str} : ∀ (ts : List Str) (st : St),
    Reach targets tasks st → ∀ s R, st.sched = .sending s (ts.map (fun x => (q, x)) ++ R) → st.ready = [] →
    st.router = .recv → st.tgt q = .idle → t ∈ ts →
    ∃ st', Reach targets tasks st' ∧ .handleStart q t ∈ st'.trace ∧ ∀ e ∈ st.trace, e ∈ st'.trace
  | [], _, _, _, _, _, _, _, _, ht => by cases ht
  | x :: ts, st, h, s, R, hs, hr, hro, hq, ht => by
    have r1 := Reach.step h (Step.schedSend st s (q, x) (ts.map (fun x => (q, x)) ++ R) hs
      ((C24_channels_never_overflow wf wft hv hlim h).2.1 s (q, x) _ hs))
    have r2 := Reach.step r1 (Step.routerRecv _ q x [] hro (by simp [hr]))
    have r3 := Reach.step r2 (Step.routerSend _ q x rfl hq)
    by_cases e : x = t
    · exact ⟨_, r3, by simp [e], fun e he => by simp [he]⟩
    · have r4 := Reach.step r3 (Step.handleEnd _ q x true (by simp))
      have r5 := Reach.step r4 (Step.report _ q x true (by simp)
        ((C24_channels_never_overflow wf wft hv hlim r4).2.2.1 q x true (by simp)))
      obtain ⟨st', h1, h2, h3⟩ := executes wf wft hv hlim ts _ r5 s R rfl rfl rfl (by simp)
        ((List.mem_cons.mp ht).resolve_left (fun h => e h.symm))
      exact ⟨st', h1, h2, fun e he => h3 e (by simp [he])⟩

/-- **C26, exactly.** The tasks that may be executed although target `q` could not be started are those of the
other targets that are handed out at the beginning, before any completion is reported (C12, C14 and C17 say which
these are). -/
theorem C26_exact (wf : targets.WF) (wft : tasks.WF) (hv : ValidTargets targets tasks)
    (hlim : ∀ q n, targets.get? q = some n → 1 ≤ n) {q q' t : Str} (hq : q ∈ targets.keys) :
    (∃ st, Reach targets tasks st ∧ .startFailed q ∈ st.trace ∧ .handleStart q' t ∈ st.trace) ↔
    q' ≠ q ∧ ∃ s out, History targets tasks s out [] ∧ (q', t) ∈ out := by
  constructor
  · rintro ⟨st, h, hf, hh⟩
    obtain ⟨hc, hfl⟩ := h.inv wf wft
    have he := h.early wf wft
    have hm := (hc.startErr q).mp hf
    refine ⟨fun e => he.ran q' t hh (e ▸ he.failed q hm), ?_⟩
    have ha : st.main.allStarted = false := by rcases hm with e | e <;> rw [e] <;> rfl
    have ho := hfl.runOut q' t hh
    rcases he.out ha with e | ⟨s, r, hn, e⟩
    · rw [e] at ho; cases ho
    · exact ⟨s, flat r, .new hn, e ▸ ho⟩
  · rintro ⟨hne, s, out, hh, ho⟩
    obtain ⟨task, ht, htg⟩ := (C13_handed_out_once_on_own_target wft hh).2 q' t ho
    obtain ⟨n, hn, -⟩ := hv t task ht
    have hq' : q' ∈ targets.keys := by rw [← htg]; exact GoMap.mem_keys_of_get? hn
    generalize hcalls : ([] : List Str) = calls at hh
    cases hh with
    | next _ _ _ => simp at hcalls
    | refused _ _ _ => simp at hcalls
    | @new s r hnew =>
      obtain ⟨-, -, -, -, -, hwf, -⟩ := new_pres wft hnew
      have hp : (q' :: q :: (targets.keys.erase q').erase q).Perm targets.keys := by
        have h1 := List.perm_cons_erase hq'
        have h2 := List.perm_cons_erase ((List.mem_erase_of_ne (Ne.symm hne)).mpr hq)
        exact ((h2.symm.cons q').trans h1.symm)
      have r0 : Reach targets tasks _ := Reach.init _ hp
      have r1 := Reach.step r0 (Step.targetStart _ q' _ rfl)
      have r2 := Reach.step r1 (Step.targetStartFail _ q _ rfl)
      obtain ⟨⟨k, ts⟩, hmem, hmap⟩ := List.mem_flatMap.mp ho
      obtain ⟨x, hx, e⟩ := List.mem_map.mp hmap
      obtain ⟨rfl, rfl⟩ := Prod.mk.inj e
      have hpr := (List.perm_cons_erase hmem).symm
      have r3 := Reach.step r2 (Step.schedNew _ s r _ rfl hnew hpr)
      obtain ⟨st', h1, h2, h3⟩ := executes wf wft hv hlim ts _ r3 s (flat (r.erase (k, ts))) rfl rfl rfl
        (by simp) hx
      exact ⟨st', h1, h3 _ (by simp), h2⟩

/-- In the runbook of `C26_refuted`, task "a" may be executed although target "y" could not be started, but not task
"b". -/
example : (∃ st, Reach failTargets failTasks st ∧ .startFailed b!"y" ∈ st.trace ∧
      .handleStart b!"x" b!"a" ∈ st.trace) ∧
    ∀ st, Reach failTargets failTasks st → .startFailed b!"y" ∈ st.trace →
      ∀ q, .handleStart q b!"b" ∉ st.trace := by
  have wf : failTargets.WF := by decide
  have wft : failTasks.WF := by decide
  have hv : ValidTargets failTargets failTasks := by
    intro t task h
    have := GoMap.mem_of_get? h
    simp only [failTasks, List.mem_cons, Prod.mk.injEq, List.not_mem_nil, or_false] at this
    rcases this with ⟨rfl, rfl⟩ | ⟨rfl, rfl⟩ <;> exact ⟨1, by decide, by decide⟩
  have hlim : ∀ q n, failTargets.get? q = some n → 1 ≤ n := by
    intro q n h
    have := GoMap.mem_of_get? h
    simp only [failTargets, List.mem_cons, Prod.mk.injEq, List.not_mem_nil, or_false] at this
    omega
  constructor
  · exact (C26_exact wf wft hv hlim (by decide)).mpr ⟨by decide, _, _, .new rfl, by decide⟩
  · intro st h hf q hh
    obtain ⟨h1, s, out, h2, h3⟩ := (C26_exact wf wft hv hlim (by decide)).mp ⟨st, h, hf, hh⟩
    obtain ⟨task, h4, h5⟩ := (C13_handed_out_once_on_own_target wft h2).2 _ _ h3
    have : failTasks.get? b!"b" = some ⟨b!"y", []⟩ := by decide
    rw [this] at h4
    cases h4
    exact h1 h5.symm

end Verif.Runner
