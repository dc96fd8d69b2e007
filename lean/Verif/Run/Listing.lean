import Verif.Run.Exact
import Verif.Run.Success
import Verif.Run.Runs
import Verif.Cmd.ListProps

/-!
# C143: the listing tells what a run executes, and where
-/

namespace Verif.Run
open Verif Book Spec

variable {dec : Decoder} {basedir : Str} {proc : Proc} {src : Src} {book : Runbook}
  {st : Runner.St} {w : World}

theorem get_list (wf : book.tasks.WF) (t : Str) : (Cmd.list book).get? t = (book.tasks.get? t).map (·.target) := by
  obtain ⟨-, h2, h3⟩ := Cmd.list_keys wf
  cases e : book.tasks.get? t with
  | some task => exact h3 t task (GoMap.mem_of_get? e)
  | none =>
    cases e' : (Cmd.list book).get? t with
    | none => rfl
    | some q =>
      obtain ⟨task, ht⟩ := GoMap.exists_get?_of_mem_keys ((h2 t).1 (GoMap.mem_keys_of_get? e'))
      rw [e] at ht
      cases ht

/-- **C143 (partial).** `runbook.List` and `runbook.Run` on one file.  At every moment of the run a task that has begun is
in the listing, with the target on which it was executed, and no task has begun more than once.  If the dependencies
exist and are not circular and `Run` has returned nil, every task of the listing has ended without an error on the
target that is listed.
Missing: files with circular dependencies or ones that do not exist (`C143_refuted`). -/
theorem C143_listed_partial (hj : Json dec) (hw1 : src.targets.WF) (hw2 : src.tasks.WF)
    (h : Reach dec basedir proc src (.running book st w)) :
    (∀ q t, .handleStart q t ∈ st.trace → (Cmd.list book).get? t = some q) ∧
    (∀ t, Runner.starts st.trace t ≤ 1) ∧
    (Ordered src → st.main = .returned none →
      ∀ q t, (Cmd.list book).get? t = some q → .handleEnd q t true ∈ st.trace) := by
  have hp := parsed hj hw1 hw2 h.parse
  obtain ⟨h1, h2, -⟩ := Runner.C19_run_at_most_once_one_per_target hp.wf1 hp.wf2 h.runner
  have hstart : ∀ q t, .handleStart q t ∈ st.trace → (Cmd.list book).get? t = some q := by
    intro q t hs
    obtain ⟨job, h3, h4⟩ := h2 q t hs
    rw [get_jobs] at h3
    obtain ⟨task, h5, rfl⟩ := Option.map_eq_some_iff.1 h3
    rw [get_list hp.wfK, h5, Option.map_some, ← h4]
  refine ⟨hstart, h1, ?_⟩
  intro ho hret q t hq
  have hv := validDeps hw1 hw2 h.parse ho
  rw [get_list hp.wfK] at hq
  obtain ⟨task, h5, rfl⟩ := Option.map_eq_some_iff.1 hq
  obtain ⟨_, q', hq'⟩ := Runner.C20_nil_means_all_succeeded_partial hp.wf1 hp.wf2 hv h.runner hret t
    (by rw [keys_jobs]; exact GoMap.mem_keys_of_get? h5)
  obtain ⟨hc, hf⟩ := h.runner.inv hp.wf1 hp.wf2
  have := hstart q' t (hf.endTr q' t true hq')
  rw [get_list hp.wfK, h5, Option.map_some] at this
  cases this
  exact hq'

/-- **C143 refuted**: a file with a circular dependency.  `Run` returns nil, and none of the tasks that are listed has
been executed. -/
theorem C143_refuted : ∃ book st w, Reach noConfig b!"/" proc0 cycSrc (.running book st w) ∧
    Cmd.list book = [(b!"a", b!"d")] ∧ st.main = .returned none ∧ ∀ q t, .handleStart q t ∉ st.trace := by
  obtain ⟨book, st, w, h, h1, h2, -⟩ := C85_refuted
  have hb : book = ⟨[(b!"d", .demo {})], [(b!"a", ⟨b!"d", [b!"a"], [], .echo⟩)]⟩ :=
    (Res.ok.inj (h.parse.symm.trans rfl))
  subst hb
  exact ⟨_, st, w, h, rfl, h1, by rw [h2]; simp⟩

/-- A run that returns nil after what is listed has been executed. -/
example : ∃ st w, Reach shConfig b!"/" { proc0 with environ := [b!"HOME=/root"] } okSrc (.running okBook st w) ∧
    Cmd.list okBook = [(b!"a", b!"x"), (b!"b", b!"x")] ∧
    .handleEnd b!"x" b!"a" true ∈ st.trace ∧ .handleEnd b!"x" b!"b" true ∈ st.trace := by
  obtain ⟨st, w, h, hret, -⟩ := okRun
  have h3 := (C143_listed_partial shConfig_json (by decide) (by decide) h).2.2 ok_ordered hret
  exact ⟨st, w, h, rfl, h3 _ _ rfl, h3 _ _ rfl⟩

end Verif.Run
