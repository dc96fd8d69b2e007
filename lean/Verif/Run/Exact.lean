import Verif.Run.Runs
import Verif.Runner.Exact

/-!
# C85, C88: the other files
-/

namespace Verif.Run
open Verif Book Spec

variable {dec : Decoder} {basedir : Str} {proc : Proc} {src : Src} {book : Runbook}
  {st : Runner.St} {w : World}

/-! ## Lemmas -/

theorem ordered_of_validDeps (hw1 : src.targets.WF) (hw2 : src.tasks.WF)
    (h : parse dec basedir src = .ok book) (hv : Runner.ValidDeps (jobs book)) : Ordered src := by
  have he : Sched.After (jobs book) = DependsOn src := by
    funext t m; exact propext (after_iff hw1 hw2 h t m)
  refine ⟨?_, ?_⟩
  · intro t m hm
    rw [← he] at hm
    have := hv.closed t m hm
    rw [keys_jobs, (C35_parse_result dec basedir src book hw1 hw2 h).2.1] at this
    obtain ⟨⟨k, o⟩, h1, rfl⟩ := List.mem_map.1 this
    exact ⟨o, h1⟩
  · rw [← he]; exact hv.acyclic

theorem Parsed.validTargets (hp : Parsed basedir book) : Sched.ValidTargets (limits book) (jobs book) := by
  intro t job hjob
  rw [get_jobs] at hjob
  cases e : book.tasks.get? t with
  | none => rw [e] at hjob; cases hjob
  | some task =>
    rw [e] at hjob
    cases hjob
    obtain ⟨tgt, ht, _⟩ := hp.task t task e
    exact ⟨_, by rw [get_limits, ht]; rfl, hp.limit _ _ ht⟩

theorem Parsed.limits (hp : Parsed basedir book) : ∀ q n, (limits book).get? q = some n → 1 ≤ n := by
  intro q n hq
  rw [get_limits] at hq
  cases e : book.targets.get? q with
  | none => rw [e] at hq; cases hq
  | some t => rw [e] at hq; cases hq; exact hp.limit q t e

theorem jobs_nil (hw1 : src.targets.WF) (hw2 : src.tasks.WF) (h : parse dec basedir src = .ok book) :
    jobs book = [] ↔ src.tasks = [] := by
  have k2 := (C35_parse_result dec basedir src book hw1 hw2 h).2.1
  have := congrArg List.length k2
  simp only [GoMap.keys, List.length_map] at this
  have h0 : (jobs book).length = book.tasks.length := by simp [jobs]
  rw [← List.length_eq_zero_iff, ← List.length_eq_zero_iff]
  omega

/-! ## C85 -/

/-- **C85, the other files.** If the dependencies written in a file have a cycle or name no task of it, then running
the file starts no task and does nothing in the name of one; and where it ends, `Run` has returned nil, unless a
target could not be started or the program panics (C87). -/
theorem C85_invalid (hj : Json dec) (hw1 : src.targets.WF) (hw2 : src.tasks.WF) (ho : ¬ Ordered src)
    (h : Reach dec basedir proc src (.running book st w)) :
    (∀ q t, .handleStart q t ∉ st.trace) ∧ w.calls = [] ∧
    ((∀ s', ¬ Act proc book (st, w) s') → ¬ Panics book st w → (∀ q, .startFailed q ∉ st.trace) →
      st.main = .returned none) := by
  have hp := parsed hj hw1 hw2 h.parse
  have hv : ¬ Runner.ValidDeps (jobs book) := fun hv => ho (ordered_of_validDeps hw1 hw2 h.parse hv)
  have hno := (Runner.C20_invalid hp.wf1 hp.wf2 hp.validTargets hp.limits hv).1 st h.runner
  have hnoend : ∀ q t ok, .handleEnd q t ok ∉ st.trace := fun q t ok he =>
    hno q t ((h.runner.inv hp.wf1 hp.wf2).2.endTr q t ok he)
  refine ⟨hno, ?_, ?_⟩
  · rw [h.calls hj hw1 hw2, List.flatMap_eq_nil_iff]
    intro e he
    cases e with
    | handleEnd q t ok => exact absurd he (hnoend q t ok)
    | _ => rfl
  · intro hend hnp hs
    refine Runner.C21_no_deadlock_when_all_succeed_partial hp.wf1 hp.wf2 hp.validTargets hp.limits ?_ h.runner hs
      (fun q t => hnoend q t false) (h.terminal hj hw1 hw2 hnp hend)
    intro hnil
    refine hv ⟨?_, ?_⟩
    · rintro t m ⟨task, h, _⟩
      simp [hnil] at h
    · intro t ht
      rw [Relation.transGen_iff] at ht
      rcases ht with ⟨task, h, _⟩ | ⟨_, _, ⟨task, h, _⟩⟩ <;> simp [hnil] at h

/-! ## C88 -/

/-- **C88, files without tasks.** `Run` never returns, unless a target could not be started. -/
theorem C88_no_tasks (hj : Json dec) (hw1 : src.targets.WF) (hw2 : src.tasks.WF) (hnil : src.tasks = [])
    (h : Reach dec basedir proc src (.running book st w)) {e : Option Runner.RunErr} (hret : st.main = .returned e) :
    ∃ q, e = some (.start q) ∧ .startFailed q ∈ st.trace := by
  have hp := parsed hj hw1 hw2 h.parse
  have hr := h.runner
  rw [(jobs_nil hw1 hw2 h.parse).2 hnil] at hr
  exact Runner.C21_no_tasks hp.wf1 hr hret

/-- **C88, failures.** If a task fails while another was handed out to its target and has not been started, `Run` never
returns, whatever happens afterwards (unless a target could not be started). -/
theorem C88_stranded (hj : Json dec) (hw1 : src.targets.WF) (hw2 : src.tasks.WF)
    (h : Reach dec basedir proc src (.running book st w)) (hst : Runner.Stranded st) {st' : Runner.St} {w' : World}
    (hl : Relation.ReflTransGen (Act proc book) (st, w) (st', w')) {e : Option Runner.RunErr}
    (hret : st'.main = .returned e) : ∃ q, e = some (.start q) := by
  have hp := parsed hj hw1 hw2 h.parse
  have hl' : Runner.Later (limits book) (jobs book) st st' := by
    exact hl.lift Prod.fst fun _ _ ha => ha.step
  exact Runner.C22_stranded hp.wf1 hp.wf2 h.runner hst hl' hret

/-- **C88, exactly.** Where the run of a file with tasks ends without panicking, `Run` has returned if and only if no
task is stranded, or a target could not be started. -/
theorem C88_exact (hj : Json dec) (hw1 : src.targets.WF) (hw2 : src.tasks.WF)
    (hne : src.tasks ≠ []) (h : Reach dec basedir proc src (.running book st w))
    (hend : ∀ s', ¬ Act proc book (st, w) s') (hnp : ¬ Panics book st w) :
    (∃ e, st.main = .returned e) ↔ ¬ Runner.Stranded st ∨ ∃ q, .startFailed q ∈ st.trace := by
  have hp := parsed hj hw1 hw2 h.parse
  exact Runner.C22_exact hp.wf1 hp.wf2 hp.validTargets hp.limits
    (fun hnil => hne ((jobs_nil hw1 hw2 h.parse).1 hnil)) h.runner (h.terminal hj hw1 hw2 hnp hend)

/-! ## Cases that meet the hypotheses

`C88_refuted_no_tasks` and `C88_refuted_failure` are runs of a file without tasks and of one in which a task is
stranded. -/

/-- The run of `C85_refuted` is one of a file with a cycle. -/
example : ¬ Ordered cycSrc := fun h => h.acyclic b!"a" (.single ⟨_, by simp [cycSrc]; rfl, by simp⟩)

/-- In the run of `C88_refuted_failure` the second task is stranded. -/
example : ∃ st w, Reach shConfig b!"/" proc0 twoSrc (.running twoBook st w) ∧ Runner.Stranded st := by
  obtain ⟨st, w, h, hend, hnp, hret, _⟩ := C88_refuted_failure
  refine ⟨st, w, h, ?_⟩
  by_contra hst
  obtain ⟨e, he⟩ := (C88_exact shConfig_json (by decide) (by decide) (by simp [twoSrc]) h hend hnp).2 (.inl hst)
  exact hret e he

end Verif.Run
